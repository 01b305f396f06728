import Verif.Props.Safety

/-!
# Tracked positions (C15), and all comments of a parsed text (C10)
-/

namespace Ressa

/-! ## C10 -/

/-- On the output of a scanner, an end-of-file look-ahead means that every item was read. -/
theorem eof_rest {text : Txt} {all : List Tok} {s : St} (hok : ScannerOk text all)
    (h : Reading text all s) (he : s.look.token = .eof) : s.rest = [] := by
  obtain ⟨pre, t, h2, h3⟩ := h.look
  obtain ⟨body, e, hb, _, hne⟩ := hok.last
  rw [h3] at he
  cases hr : s.rest with
  | nil => rfl
  | cons t' ts =>
    exfalso
    obtain ⟨r, x, hrx⟩ : ∃ r x, t :: s.rest = t :: (r ++ [x]) := by
      rw [hr]; exact ⟨(t' :: ts).dropLast, (t' :: ts).getLast nofun, by
        rw [List.dropLast_concat_getLast]⟩
    rw [hrx, ← List.cons_append, ← List.append_assoc] at h2
    obtain ⟨h4, _⟩ := List.append_inj' (hb.symm.trans h2) rfl
    exact hne t (by simp [h4]) he

/-- C10: after a successful parse every comment of the source has been delivered. -/
theorem all_comments_delivered {L : Lexer} {b : Builder} {s s' : St} {prog : Program}
    (hok : ScannerOk b.js (L.scan b.js)) (h : Reachable L b s) (hp : parse s = .ok prog s') :
    s'.comments = commentsOf b.js (L.scan b.js) := by
  obtain ⟨ps, hc, hn, _⟩ := (parse_ok_iff s s' prog).1 hp
  have h' : Reachable L b s' := by
    obtain ⟨s0, h0, hcs⟩ := h
    exact ⟨s0, h0, hcs.tail (.parseOk hp)⟩
  have hr := eof_rest hok (reachable_reading hok h') ((none_iff_eof _ _).1 hn).1
  obtain ⟨pre, hs, hcm⟩ := comments_delivered h'
  rw [hr, List.append_nil] at hs
  rw [hs]; exact hcm

/-! ## C15 -/

theorem LfOnly.left {a b : Txt} (h : LfOnly (a ++ b)) : LfOnly a :=
  fun c hc => h c (by simp [hc])

theorem LfOnly.right {a b : Txt} (h : LfOnly (a ++ b)) : LfOnly b :=
  fun c hc => h c (by simp [hc])

theorem LfOnly.tail {c : Char} {t : Txt} (h : LfOnly (c :: t)) : LfOnly t :=
  fun x hx => h x (by simp [hx])

theorem LfOnly.lineStarts_cons {c : Char} {t : Txt} (h : LfOnly (c :: t)) (pos : Nat) :
    lineStarts (c :: t) pos = if c = '\n' then (pos + 1) :: lineStarts t (pos + 1)
      else lineStarts t (pos + c.utf8Size) := by
  have hc := h c (by simp)
  have hr : c ≠ '\r' := by rintro rfl; exact absurd (hc rfl) (by decide)
  have h1 : c ≠ '\u2028' := by rintro rfl; exact absurd (hc rfl) (by decide)
  have h2 : c ≠ '\u2029' := by rintro rfl; exact absurd (hc rfl) (by decide)
  rw [Ressa.lineStarts_cons (fun e => hr e.1)]
  by_cases hn : c = '\n'
  · subst hn; rfl
  · simp [hr, h1, h2, hn]

theorem LfOnly.lineStarts_append {p u : Txt} (h : LfOnly p) (hu : LfOnly u) (pos : Nat) :
    lineStarts (p ++ u) pos = lineStarts p pos ++ lineStarts u (pos + blen p) := by
  induction p generalizing pos with
  | nil => simp [lineStarts]
  | cons c p ih =>
    have hcu : LfOnly (c :: (p ++ u)) := by
      intro x hx
      rcases List.mem_cons.1 hx with rfl | hx
      · exact h _ (by simp)
      · rcases List.mem_append.1 hx with hx | hx
        · exact h x (by simp [hx])
        · exact hu x hx
    rw [List.cons_append, hcu.lineStarts_cons, h.lineStarts_cons, ih h.tail, ih h.tail]
    by_cases hn : c = '\n'
    · subst hn
      simp [show ('\n' : Char).utf8Size = 1 from rfl, Nat.add_assoc]
    · simp [hn, Nat.add_assoc]

theorem LfOnly.length_lineStarts {p : Txt} (h : LfOnly p) (pos : Nat) :
    (lineStarts p pos).length = p.countP isLineTerm := by
  induction p generalizing pos with
  | nil => rfl
  | cons c p ih =>
    rw [h.lineStarts_cons, List.countP_cons]
    by_cases hn : c = '\n'
    · subst hn; simp [ih h.tail, isLineTerm]
    · have : isLineTerm c = false := by
        cases hc : isLineTerm c with
        | false => rfl
        | true => exact absurd (h c (by simp) hc) hn
      simp [hn, this, ih h.tail]

theorem afterLastLf_le (p : Txt) : blen (afterLastLf p) ≤ blen p := by
  induction p with
  | nil => exact Nat.le_refl _
  | cons d p ih =>
    simp only [afterLastLf]
    split
    · simp; omega
    · split <;> simp

theorem afterLastLf_of_last {p : Txt} (h : p.getLast? = some '\n') : afterLastLf p = [] := by
  induction p with
  | nil => cases h
  | cons c p ih =>
    cases p with
    | nil =>
      simp only [List.getLast?_singleton, Option.some.injEq] at h
      subst h
      rfl
    | cons d p =>
      rw [List.getLast?_cons_cons] at h
      have hm : '\n' ∈ d :: p := List.mem_of_getLast? h
      have : (d :: p).any (· == '\n') = true := List.any_eq_true.2 ⟨_, hm, rfl⟩
      rw [afterLastLf, if_pos this]
      exact ih h

/-- `pos` is the line and column of byte offset `n`. -/
def PosAt (text : Txt) (n : Nat) (pos : Position) : Prop :=
  ∃ p u, text = p ++ u ∧ blen p = n ∧ pos = ⟨lineOf p, columnOf p⟩

theorem startOfLine_le (p : Txt) : startOfLine p ≤ blen p := by
  have := column_roundtrip p; omega

/-- The line terminators are LF and CR LF, complete ones. -/
structure Complete (t : Txt) : Prop where
  terms : ∀ c ∈ t, isLineTerm c = true → c = '\n' ∨ c = '\r'
  crlf : ∀ a b, t = a ++ '\r' :: b → b.head? = some '\n'

theorem Complete.right {a b : Txt} (h : Complete (a ++ b)) : Complete b where
  terms c hc := h.terms c (by simp [hc])
  crlf x y e := h.crlf (a ++ x) y (by simp [e])

theorem Complete.left {a b : Txt} (h : Complete (a ++ b))
    (hw : ¬(a.getLast? = some '\r' ∧ b.head? = some '\n')) : Complete a where
  terms c hc := h.terms c (by simp [hc])
  crlf x y e := by
    have := h.crlf x (y ++ b) (by simp [e])
    cases y with
    | nil => exact absurd ⟨by simp [e], this⟩ hw
    | cons c y => exact this

theorem Complete.tail {c : Char} {t : Txt} (h : Complete (c :: t)) : Complete t :=
  h.right (a := [c])

theorem Breaks.complete {text : Txt} {all : List Tok} (h : Breaks text all) : Complete text :=
  ⟨h.terms, h.crlf⟩

theorem LfOnly.breaks {text : Txt} (h : LfOnly text) (all : List Tok) : Breaks text all := by
  have hr : '\r' ∉ text := fun hc => absurd (h '\r' hc rfl) (by decide)
  refine ⟨fun c hc ht => .inl (h c hc ht), ?_, ?_, ?_, ?_⟩
  · rintro a b rfl
    exact absurd (by simp) hr
  · intro t _ raw hs hc
    obtain ⟨a, b, e, _⟩ := sliceB_iff.1 hs
    exact hr (by rw [e]; simp [hc])
  · rintro t _ p u rfl _ hu
    exact hr (List.mem_append.2 (.inr (List.mem_of_head? hu)))
  · rintro t _ p u rfl _ ⟨hp, _⟩
    exact hr (List.mem_append.2 (.inl (List.mem_of_getLast? hp)))

theorem Breaks.mono {text : Txt} {all all' : List Tok} (h : Breaks text all)
    (hs : ∀ t ∈ all', t ∈ all) : Breaks text all' :=
  ⟨h.terms, h.crlf, fun t ht => h.items t (hs t ht), fun t ht => h.starts t (hs t ht),
    fun t ht => h.whole t (hs t ht)⟩

/-- The starts of lines, where no CR LF is cut apart. -/
theorem lineStarts_joint (p u : Txt) (pos : Nat)
    (h : ¬(p.getLast? = some '\r' ∧ u.head? = some '\n')) :
    lineStarts (p ++ u) pos = lineStarts p pos ++ lineStarts u (pos + blen p) := by
  fun_induction lineStarts p pos with
  | case1 pos => simp
  | case2 t pos ih =>
    have e : lineStarts ('\r' :: '\n' :: t ++ u) pos =
        (pos + 2) :: lineStarts (t ++ u) (pos + 2) := by
      simp only [List.cons_append]; rw [lineStarts]
    rw [e, ih (fun hh => h ⟨by simp [List.getLast?_cons, hh.1], hh.2⟩)]
    have h1 : Char.utf8Size '\r' = 1 := rfl
    have h2 : Char.utf8Size '\n' = 1 := rfl
    simp only [List.cons_append, blen_cons, h1, h2]
    congr 3
    omega
  | case3 c t pos hc hl ih =>
    rw [List.cons_append, Ressa.lineStarts_cons, if_pos hl, ih, blen_cons, Nat.add_assoc]
    · rfl
    · intro hh
      refine h ⟨?_, hh.2⟩
      have : t ≠ [] := by rintro rfl; simp at hh
      rw [List.getLast?_cons, hh.1]; rfl
    · rintro ⟨rfl, v, hv⟩
      cases t with
      | nil => exact h ⟨rfl, by simp at hv; simp [hv]⟩
      | cons d t =>
        simp only [List.cons_append, List.cons.injEq] at hv
        exact hc _ rfl (by rw [hv.1])
  | case4 c t pos hc hl ih =>
    rw [List.cons_append, Ressa.lineStarts_cons, if_neg hl, ih, blen_cons, Nat.add_assoc]
    · intro hh
      refine h ⟨?_, hh.2⟩
      rw [List.getLast?_cons, hh.1]; rfl
    · rintro ⟨rfl, v, hv⟩
      exact absurd (by simp) hl

theorem isLineTerm_iff {c : Char} :
    isLineTerm c = true ↔ c = '\n' ∨ c = '\r' ∨ c = '\u2028' ∨ c = '\u2029' := by
  simp [isLineTerm, or_assoc]

theorem length_lineStarts (p : Txt) (pos : Nat) :
    (lineStarts p pos).length + countCrlf p = p.countP isLineTerm := by
  fun_induction lineStarts p pos with
  | case1 pos => rfl
  | case2 t pos ih =>
    have e1 : isLineTerm '\r' = true := rfl
    have e2 : isLineTerm '\n' = true := rfl
    simp only [countCrlf, List.length_cons, List.countP_cons, e1, e2, if_true]
    omega
  | case3 c t pos hc hl ih =>
    rw [countCrlf, List.countP_cons, if_pos (isLineTerm_iff.2 hl), List.length_cons]
    · omega
    · exact hc
  | case4 c t pos hc hl ih =>
    rw [countCrlf, List.countP_cons, if_neg (fun h => hl (isLineTerm_iff.1 h))]
    · omega
    · exact hc

theorem countCrlf_append {a b : Txt} (h : '\r' ∉ a) : countCrlf (a ++ b) = countCrlf b := by
  induction a with
  | nil => rfl
  | cons c a ih =>
    simp only [List.mem_cons, not_or] at h
    rw [List.cons_append, countCrlf, ih h.2]
    rintro t rfl
    exact absurd rfl h.1

theorem Complete.any_iff {p : Txt} (h : Complete p) (pos : Nat) :
    p.any (· == '\n') = true ↔ lineStarts p pos ≠ [] := by
  fun_induction lineStarts p pos with
  | case1 pos => simp
  | case2 t pos ih => simp
  | case3 c t pos hc hl ih =>
    simp only [ne_eq, reduceCtorEq, not_false_eq_true, iff_true]
    rcases h.terms c (by simp) (isLineTerm_iff.2 hl) with rfl | rfl
    · simp
    · have := h.crlf [] t rfl
      simp [List.mem_of_head? this]
  | case4 c t pos hc hl ih =>
    rw [← ih h.tail]
    have : c ≠ '\n' := fun e => hl (.inl e)
    simp [this]

theorem Complete.getLast_lineStarts {p : Txt} (h : Complete p) (pos : Nat) :
    (lineStarts p pos).getLast? =
      if p.any (· == '\n') then some (pos + blen p - blen (afterLastLf p)) else none := by
  fun_induction lineStarts p pos with
  | case1 pos => rfl
  | case2 t pos ih =>
    have ih := ih h.tail.tail
    have hle := afterLastLf_le t
    have e1 : ('\r' : Char).utf8Size = 1 := rfl
    have e2 : ('\n' : Char).utf8Size = 1 := rfl
    rw [List.getLast?_cons, ih]
    by_cases ha : t.any (· == '\n') = true
    · have hm : '\n' ∈ t := by simpa using ha
      simp [afterLastLf, hm, e1, e2]
      omega
    · have hm : '\n' ∉ t := by simpa using ha
      simp [afterLastLf, hm, e1, e2]
      omega
  | case3 c t pos hc hl ih =>
    have ih := ih h.tail
    have hle := afterLastLf_le t
    rw [List.getLast?_cons, ih]
    by_cases ha : t.any (· == '\n') = true
    · have hm : '\n' ∈ t := by simpa using ha
      simp [afterLastLf, hm]
      omega
    · have hm : '\n' ∉ t := by simpa using ha
      rcases h.terms c (by simp) (isLineTerm_iff.2 hl) with rfl | rfl
      · simp [afterLastLf, hm]
        omega
      · exact absurd (List.mem_of_head? (h.crlf [] t rfl)) hm
  | case4 c t pos hc hl ih =>
    have ih := ih h.tail
    have hle := afterLastLf_le t
    have hn : c ≠ '\n' := fun e => hl (.inl e)
    rw [ih]
    by_cases ha : t.any (· == '\n') = true
    · have hm : '\n' ∈ t := by simpa using ha
      simp [afterLastLf, hm]
      omega
    · have hm : '\n' ∉ t := by simpa using ha
      simp [hn, hm]

/-- The span of an item. -/
structure SpanOk (text : Txt) (span : Span) : Prop where
  slice : ∃ raw, sliceB text span.start span.stop = some raw ∧ '\r' ∉ raw
  whole : Whole text span.start

theorem Breaks.span {text : Txt} {all : List Tok} (h : Breaks text all) (hok : ScannerOk text all)
    {t : Tok} (ht : t ∈ all) : SpanOk text t.item.span :=
  ⟨let ⟨raw, hr, _⟩ := hok.items t ht; ⟨raw, hr, h.items t ht raw hr⟩, h.whole t ht⟩

theorem SpanOk.noItem (text : Txt) : SpanOk text noItem.span :=
  ⟨⟨[], by
      rw [sliceB_iff]
      exact ⟨[], text, rfl, rfl, rfl⟩, by simp⟩,
    fun p u _ hp h => by rw [show p = [] from blen_eq_zero.1 hp] at h; simp at h⟩

theorem updatePositions_exact {text : Txt} {all : List Tok} {pos : Position} {span : Span} {n : Nat}
    (hlf : Breaks text all) (hsp : SpanOk text span) (hw : Whole text n)
    (h : PosAt text span.start pos) {cur look : Position}
    (hu : updatePositions text pos span n = some (cur, look)) :
    cur = pos ∧ PosAt text n look := by
  obtain ⟨p, u, htext, hp, rfl⟩ := h
  unfold updatePositions at hu
  cases h1 : sliceB text span.start n with
  | none => simp [h1] at hu
  | some prev =>
  cases h2 : sliceB text span.stop n with
  | none => simp [h1, h2] at hu
  | some ws =>
  simp only [h1, h2, Option.bind_eq_bind, Option.bind_some] at hu
  obtain ⟨a, b, hab, ha, hn⟩ := sliceB_iff.1 h1
  obtain ⟨rfl, rfl⟩ := append_inj_blen (p := p) (u := u) (p' := a) (u' := prev ++ b)
    (by rw [← htext, hab]; simp) (by omega)
  obtain ⟨raw, hraw, hcr⟩ := hsp.slice
  have hpw : prev = raw ++ ws := by
    have := sliceB_append hraw h2
    rw [h1] at this
    exact Option.some.inj this
  have hwn := hw (p ++ prev) b hab (by simp; omega)
  have hws := hsp.whole p (prev ++ b) htext hp
  have hpp : Complete (p ++ prev) := (hab ▸ hlf.complete : Complete (p ++ prev ++ b)).left hwn
  have hpr : Complete prev := hpp.right
  have hj : ¬(p.getLast? = some '\r' ∧ prev.head? = some '\n') := fun hh =>
    hws ⟨hh.1, by
      cases prev with
      | nil => simp at hh
      | cons c prev => exact hh.2⟩
  have hcc : countCrlf ws = countCrlf prev := by rw [hpw, countCrlf_append hcr]
  have hlen := length_lineStarts prev (blen p)
  rw [hcc] at hu
  have hl : lineOf (p ++ prev) = lineOf p + (prev.countP isLineTerm - countCrlf prev) := by
    simp only [lineOf, lineStarts_joint p prev 0 hj, List.length_append, Nat.zero_add]
    omega
  have hs : startOfLine (p ++ prev) = if prev.any (· == '\n') then
      blen p + blen prev - blen (afterLastLf prev) else startOfLine p := by
    simp only [startOfLine, lineStarts_joint p prev 0 hj, List.getLast?_append,
      hpr.getLast_lineStarts, Nat.zero_add]
    split <;> simp
  have hsl := startOfLine_le p
  rw [if_neg (by omega)] at hu
  split at hu
  · next h0 =>
    simp only [Option.some.injEq, Prod.mk.injEq] at hu
    obtain ⟨rfl, rfl⟩ := hu
    refine ⟨rfl, p ++ prev, b, hab, by simp; omega, ?_⟩
    have : ¬ prev.any (· == '\n') = true := fun h => (hpr.any_iff (blen p)).1 h
      (List.length_eq_zero_iff.1 (by omega))
    rw [if_neg this] at hs
    rw [hl, h0]
    simp only [columnOf, hs, Position.mk.injEq, Nat.add_zero, true_and, blen_append]
    omega
  · next h0 =>
    simp only [Option.some.injEq, Prod.mk.injEq] at hu
    obtain ⟨rfl, rfl⟩ := hu
    refine ⟨rfl, p ++ prev, b, hab, by simp; omega, ?_⟩
    rw [if_pos ((hpr.any_iff (blen p)).2 fun e => h0 (by rw [e] at hlen; simp at hlen; omega))] at hs
    have hle := afterLastLf_le prev
    rw [hl]
    simp only [columnOf, hs, Position.mk.injEq, true_and, blen_append]
    cases hg : prev.getLast? with
    | none => 
      have : prev = [] := by simpa using hg
      subst this
      simp at h0
    | some c =>
      simp only
      split
      · next hc =>
        rcases hpr.terms c (List.mem_of_getLast? hg) hc with rfl | rfl
        · rw [afterLastLf_of_last hg]
          simp
        · obtain ⟨x, e⟩ := List.getLast?_eq_some_iff.1 hg
          have := hpr.crlf x [] e
          simp at this
      · omega

/-- The tracked positions of a state are exact. -/
structure Tracked (text : Txt) (s : St) : Prop where
  look : PosAt text s.look.span.start s.lookPos
  cur : ∃ n, PosAt text n s.curPos

theorem Next.tracks {text : Txt} {all : List Tok} (hlf : Breaks text all) (hok : ScannerOk text all)
    {span ts s r} (h : Next span ts s r) :
    s.stream = text → SpanOk text span → PosAt text span.start s.lookPos →
      (∃ n, PosAt text n s.curPos) →
      (ts = [] → s.look.span.start = span.start) →
    (∀ t ∈ ts.getLast?, t.item.token = .eof) →
    (∀ t ∈ ts, t ∈ all) →
    r.Sat (fun _ s' => Tracked text s') (fun _ s' => Tracked text s') True := by
  induction h with
  | eof => intro _ _ h1 h2 h3 _ _; exact ⟨h3 rfl ▸ h1, h2⟩
  | after => intro _ _ h1 h2 h3 _ _; exact ⟨h3 rfl ▸ h1, h2⟩
  | missing => intro _ _ h1 h2 h3 _ _; exact ⟨h3 rfl ▸ h1, h2⟩
  | bad => intros; trivial
  | @badComment span t ts s cur look kind hu ht hs =>
    intro hst _ _ _ _ _ hsl
    obtain ⟨c, hc, _⟩ := hok.items t (hsl t (by simp))
    rw [hst, hc] at hs
    cases hs
  | @comment span t ts s cur look kind c r hu ht hs _ ih =>
    intro hst h0 h1 h2 h3 h4 h5
    rw [hst] at hu
    obtain ⟨rfl, hl⟩ := updatePositions_exact hlf h0 (hlf.whole t (h5 t (by simp))) h1 hu
    refine ih hst (hlf.span hok (h5 t (by simp))) hl ⟨_, h1⟩ ?_ ?_ (fun t ht => h5 t (by simp [ht]))
    · rintro rfl
      have := h4 t (by simp)
      rw [ht] at this
      cases this
    · intro t' ht'
      refine h4 t' ?_
      rw [List.getLast?_cons]
      simp only [Option.mem_def] at ht' ⊢
      simp [ht']
  | @token span t ts s cur look hu ht =>
    intro hst h0 h1 h2 _ _ h5
    rw [hst] at hu
    obtain ⟨rfl, hl⟩ := updatePositions_exact hlf h0 (hlf.whole t (h5 t (by simp))) h1 hu
    exact ⟨hl, _, h1⟩

theorem ScannerOk.suffix_last {text : Txt} {all pre ts : List Tok} (hok : ScannerOk text all)
    (h : all = pre ++ ts) : ∀ t ∈ ts.getLast?, t.item.token = .eof := by
  intro t ht
  simp only [Option.mem_def, List.getLast?_eq_some_iff] at ht
  obtain ⟨ts', rfl⟩ := ht
  exact hok.last_eof (pre := pre ++ ts') (by simp [h])

/-- The tracked positions are exact. -/
def posSys (text : Txt) (all : List Tok) : Sys :=
  { safeSys text all with inv := fun s => Reading text all s ∧ Tracked text s }

theorem posSys_ok {text : Txt} {all : List Tok} (hlf : Breaks text all) (hok : ScannerOk text all) :
    SysOk (posSys text all) :=
  have H := safeSys_ok hok
  { refl := H.refl
    trans := fun _ _ => trivial
    ctxInv := fun c h => ⟨H.ctxInv c h.1, h.2.look, h.2.cur⟩
    ctxOrd := fun _ => trivial
    next := by
      rintro s ⟨h, ht⟩
      have h1 := H.next h
      obtain ⟨pre, t, h2, h3⟩ := h.look
      have h2' := (nextItem_spec s).tracks hlf hok h.stream
        (h3 ▸ hlf.span hok (t := t) (by simp [h2])) ht.look ht.cur (fun _ => rfl)
        (hok.suffix_last (pre := pre ++ [t]) (by simpa using h2))
        (fun t ht => by simp [h2, ht])
      revert h1 h2'
      cases nextItem s with
      | ok a s' => exact fun h1 h2 => ⟨⟨h1.1, h2⟩, h1.2⟩
      | err a s' => exact fun h1 h2 => ⟨⟨h1.1, h2⟩, h1.2⟩
      | panic => exact fun h _ => h
      | diverge => exact fun h _ => h
    look := fun h => H.look h.1
    slice := fun h => H.slice h.1
    pos := fun h => H.pos h.1
    errPos := fun h => H.errPos h.1
    peek := fun h => H.peek h.1
    reinterpret := fun {s} p => H.reinterpret (s := s) p
    label := fun {s} p t => H.label (s := s) p t
    fail := fun {s _} h => H.fail (s := s) h
    template := fun h => H.template h.1
    regex := fun h => H.regex h.1 }

theorem reachable_tracked {L : Lexer} {b : Builder} {s : St}
    (hlf : Breaks b.js (L.scan b.js)) (hok : ScannerOk b.js (L.scan b.js)) (h : Reachable L b s) :
    Reading b.js (L.scan b.js) s ∧ Tracked b.js s := by
  obtain ⟨s0, h0, hc⟩ := h
  obtain ⟨s1, h1, hr⟩ := build_reading hok
  rw [h0] at h1
  cases h1
  refine (Sys.calls (posSys_ok hlf hok) hc ⟨hr, ?_⟩).2.1
  have e : b.build L = skipItem (b.init L) := rfl
  rw [e] at h0
  unfold skipItem at h0
  obtain ⟨i, s1, h1, h2⟩ := bind_eq_ok.1 h0
  have h3 : s1 = s0 := by cases h2; rfl
  subst h3
  have hp : PosAt b.js 0 ⟨1, 0⟩ := ⟨[], b.js, rfl, rfl, rfl⟩
  have hne : L.scan b.js ≠ [] := by
    obtain ⟨body, e, he, _⟩ := hok.last
    simp [he]
  have := (nextItem_spec (b.init L)).tracks hlf hok rfl (.noItem _) hp ⟨0, hp⟩
    (fun h => absurd h hne) (hok.suffix_last (pre := []) rfl) (fun _ ht => ht)
  rw [h1] at this
  exact this

theorem LfOnly.crOk {t : Txt} (h : LfOnly t) : CrOk t := by
  rintro a b rfl
  exact absurd (h '\r' (by simp) rfl) (by decide)

theorem Breaks.crOk {t : Txt} {all : List Tok} (h : Breaks t all) : CrOk t := by
  intro a b e
  have := h.crlf a b e
  cases b with
  | nil => cases this
  | cons c b => cases this; exact ⟨_, _, rfl, rfl⟩

/-- C15: in a text whose line terminators are LF and CR LF and whose items contain no CR, the
tracked position of the look-ahead is the line and the column of its first character, and the
position the line table gives for it. -/
theorem tracked_position {L : Lexer} {b : Builder} {s : St}
    (hlf : Breaks b.js (L.scan b.js)) (hok : ScannerOk b.js (L.scan b.js)) (h : Reachable L b s) :
    ∃ p u, b.js = p ++ u ∧ blen p = s.look.span.start ∧ s.lookPos = ⟨lineOf p, columnOf p⟩ ∧
      (u.head? ≠ some '\n' → getItemPosition s.lines s.look.span.start = some s.lookPos) := by
  obtain ⟨hr, ht, _⟩ := reachable_tracked hlf hok h
  obtain ⟨p, u, hpu, hp, he⟩ := ht
  refine ⟨p, u, hpu, hp, he, fun hn => ?_⟩
  rw [hr.lines, he, ← hp, hpu]
  refine position_correct p u (hpu ▸ hlf).crOk hn ?_
  obtain ⟨pre, t, h2, h3⟩ := hr.look
  exact hlf.starts t (by simp [h2]) p u hpu (h3 ▸ hp)

/-- C15: the position of the previous item, which errors without a token carry, is the exact
position of some offset of the text. -/
theorem current_position {L : Lexer} {b : Builder} {s : St}
    (hlf : Breaks b.js (L.scan b.js)) (hok : ScannerOk b.js (L.scan b.js)) (h : Reachable L b s) :
    ∃ n, PosAt b.js n s.curPos :=
  (reachable_tracked hlf hok h).2.cur

/-- C15 on a text with a two-line comment. -/
example :
    let s := Demo.after next (Demo.state [Demo.id t!"é", ⟨true, .comment .multiLine, t!"/*\n*/"⟩,
      Demo.nl (Demo.id t!"x"), Demo.p .semiColon t!";"])
    s.look.token = .ident ∧ s.lookPos = ⟨4, 0⟩ := by
  constructor <;> kernel_rfl

/-- C15 on a text with CR LF between items: `a`, CR LF, CR LF, a blank, `b`. -/
example :
    updatePositions t!"a\r\n\r\n b" ⟨1, 0⟩ ⟨0, 1⟩ 6 = some (⟨1, 0⟩, ⟨3, 1⟩) ∧
    (lineOf t!"a\r\n\r\n ", columnOf t!"a\r\n\r\n ") = (3, 1) := by decide +kernel

/-- C15 fails with other line terminators: after a lone CR the tracked column counts from the last
LF, or from the start of the text. -/
theorem tracked_column_wrong :
    updatePositions t!"ab\rc" ⟨1, 0⟩ ⟨0, 2⟩ 3 = some (⟨1, 0⟩, ⟨2, 0⟩) ∧
    updatePositions t!"a/*\r*/c" ⟨1, 0⟩ ⟨0, 1⟩ 1 = some (⟨1, 0⟩, ⟨1, 1⟩) ∧
    updatePositions t!"a/*\r*/c" ⟨1, 1⟩ ⟨1, 6⟩ 6 = some (⟨1, 1⟩, ⟨2, 5⟩) ∧
    columnOf t!"a/*\r*/" = 2 := by decide +kernel

/-- C15 fails if an item contains a CR LF: it counts as two lines. -/
theorem tracked_line_wrong :
    updatePositions t!"/*\r\n*/c" ⟨1, 0⟩ ⟨0, 6⟩ 6 = some (⟨1, 0⟩, ⟨3, 2⟩) ∧
    lineOf t!"/*\r\n*/" = 2 := by decide +kernel

end Ressa
