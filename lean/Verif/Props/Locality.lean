import Verif.Proof.Sim
import Verif.Props.Lines
import Verif.Spec.Demo

/-!
# Later text cannot change earlier results (C42)
-/

namespace Ressa

/-! ## Texts with a common prefix -/

theorem sliceB_prefix {p u : Txt} {a b : Nat} (hb : b ≤ blen p) :
    sliceB (p ++ u) a b = sliceB p a b := by
  cases h : sliceB p a b with
  | some m =>
    obtain ⟨x, y, rfl, h1, h2⟩ := sliceB_iff.1 h
    exact sliceB_iff.2 ⟨x, y ++ u, by simp, h1, h2⟩
  | none =>
    cases h' : sliceB (p ++ u) a b with
    | none => rfl
    | some m =>
      obtain ⟨x, y, e, h1, h2⟩ := sliceB_iff.1 h'
      exfalso
      have hle : blen (x ++ m) ≤ blen p := by simp; omega
      have : ∃ z, p = x ++ m ++ z := by
        rcases List.append_eq_append_iff.1 e with ⟨z, hz, _⟩ | ⟨z, hz, _⟩
        · have : blen z = 0 := by rw [hz] at hle; simp at hle; omega
          rw [blen_eq_zero.1 this] at hz
          exact ⟨[], by simpa using hz.symm⟩
        · exact ⟨z, hz⟩
      obtain ⟨z, rfl⟩ := this
      rw [sliceB_iff.2 ⟨x, z, rfl, h1, h2⟩] at h
      cases h

theorem getLinesGo_append : ∀ (p u : Txt) (ls pos : Nat), p.getLast? ≠ some '\r' →
    getLinesGo (p ++ u) ls pos =
      ((getLinesGo p ls pos).1 ++ (getLinesGo u (getLinesGo p ls pos).2 (pos + blen p)).1,
        (getLinesGo u (getLinesGo p ls pos).2 (pos + blen p)).2)
  | [], u, ls, pos, _ => by simp [getLinesGo]
  | c :: p, u, ls, pos, h => by
    have hp : p.getLast? ≠ some '\r' := by
      cases p with
      | nil => simp
      | cons d p => simpa [List.getLast?_cons_cons] using h
    have ih := fun ls pos => getLinesGo_append p u ls pos hp
    have e : pos + blen (c :: p) = pos + c.utf8Size + blen p := by simp; omega
    rw [e, List.cons_append]
    rw [getLinesGo.eq_2, getLinesGo.eq_2]
    dsimp only
    by_cases hc : c = '\r'
    · subst hc
      rw [if_pos rfl, if_pos rfl]
      cases p with
      | nil => simp at h
      | cons d p =>
        have ht : takeB ('\r' :: (d :: p ++ u)) 2 = takeB ('\r' :: d :: p) 2 := by
          have h1 : Char.utf8Size '\r' = 1 := rfl
          simp only [takeB, List.cons_append, h1]
          have hz : ∀ x, takeB x (1 - d.utf8Size) = some [] := by
            intro x
            have := d.utf8Size_pos
            rw [show 1 - d.utf8Size = 0 by omega]
            cases x <;> rfl
          simp only [hz, Nat.zero_add]
        rw [ht]
        cases takeB ('\r' :: d :: p) 2 with
        | none => simp only [ih]
        | some two =>
          simp only
          split
          · exact ih _ _
          · have := ih (pos + 1) (pos + Char.utf8Size '\r')
            rw [this]
            rfl
    · rw [if_neg hc, if_neg hc]
      by_cases hn : c = '\n'
      · rw [if_pos hn, if_pos hn]
        simp only [ih, List.cons_append]
      · rw [if_neg hn, if_neg hn]
        by_cases hs : c = ' ' ∨ c = ' '
        · rw [if_pos hs, if_pos hs]
          simp only [ih, List.cons_append]
        · rw [if_neg hs, if_neg hs]
          exact ih _ _

/-- What the search finds in a table with the given line starts. -/
theorem position_rows {n1 n2 : List Nat} {n stop : Nat} (h1 : ∀ m ∈ n1, m ≤ n + 1)
    (h2 : ∀ m ∈ n2, n + 1 < m) :
    getItemPosition (rowsOf 0 (n1 ++ n2) ++ [⟨(n1 ++ n2).getLast?.getD 0, stop⟩]) n =
      some ⟨n1.length + 1, n - n1.getLast?.getD 0⟩ := by
  rw [rowsOf_append]
  have hx : ∃ x b, rowsOf (n1.getLast?.getD 0) n2 ++ [⟨(n1 ++ n2).getLast?.getD 0, stop⟩] = x :: b ∧
      x.start = n1.getLast?.getD 0 ∧ ∀ l ∈ (x :: b).dropLast, n < l.stop := by
    cases n2 with
    | nil => exact ⟨_, [], rfl, by simp, by simp⟩
    | cons m ms =>
      refine ⟨_, _, rfl, rfl, ?_⟩
      intro l hl
      have e : ((⟨n1.getLast?.getD 0, m - 1⟩ : Line) :: (rowsOf m ms ++
        [⟨(n1 ++ m :: ms).getLast?.getD 0, stop⟩])).dropLast =
          rowsOf (n1.getLast?.getD 0) (m :: ms) := by
        rw [← List.cons_append, List.dropLast_concat]; rfl
      have hl' : l ∈ rowsOf (n1.getLast?.getD 0) (m :: ms) := by rw [← e]; exact hl
      obtain ⟨k, hk, e'⟩ := rowsOf_stop hl'
      have := h2 k hk
      omega
  obtain ⟨x, b, e, hxs, hb⟩ := hx
  unfold getItemPosition
  rw [List.append_assoc, e, search_spec _ (rowsOf 0 n1) b x n 0 ?_ hb (by omega)]
  · simp only [Nat.zero_add, rowsOf_length, hxs]
  · intro l hl
    obtain ⟨k, hk, e'⟩ := rowsOf_stop hl
    have := h1 k hk
    omega

theorem sorted_split (n : Nat) : ∀ ns : List Nat, ns.Pairwise (· < ·) →
    ∃ n1 n2, ns = n1 ++ n2 ∧ (∀ m ∈ n1, m ≤ n) ∧ ∀ m ∈ n2, n < m
  | [], _ => ⟨[], [], rfl, by simp, by simp⟩
  | a :: ns, h => by
    simp only [List.pairwise_cons] at h
    by_cases ha : a ≤ n
    · obtain ⟨n1, n2, e, h1, h2⟩ := sorted_split n ns h.2
      refine ⟨a :: n1, n2, by rw [e]; rfl, ?_, h2⟩
      intro m hm
      rcases List.mem_cons.1 hm with rfl | hm
      · exact ha
      · exact h1 m hm
    · refine ⟨[], a :: ns, rfl, by simp, ?_⟩
      intro m hm
      rcases List.mem_cons.1 hm with rfl | hm
      · omega
      · have := h.1 m hm; omega

/-- The position computed for a place inside `p` does not depend on what follows `p`. -/
theorem position_prefix {p : Txt} (hp : p.getLast? ≠ some '\r') {n : Nat} (hn : n < blen p)
    (u1 u2 : Txt) : getItemPosition (getLines (p ++ u1)) n = getItemPosition (getLines (p ++ u2)) n := by
  obtain ⟨ns, e, hs, hb⟩ := getLinesGo_rows p 0 0 (Nat.le_refl _)
  obtain ⟨n1, n2, rfl, h1, h2⟩ := sorted_split (n + 1) ns (List.pairwise_cons.1 hs).2
  have key : ∀ u, getItemPosition (getLines (p ++ u)) n =
      some ⟨n1.length + 1, n - n1.getLast?.getD 0⟩ := by
    intro u
    obtain ⟨ms, e', hs', hb'⟩ := getLinesGo_rows u ((n1 ++ n2).getLast?.getD 0) (0 + blen p) (by
      cases h : (n1 ++ n2).getLast? with
      | none => simp
      | some k => have := hb k (List.mem_of_getLast? h); simp; omega)
    unfold getLines
    rw [getLinesGo_append p u 0 0 hp, e]
    simp only [e']
    rw [← rowsOf_append, List.append_assoc]
    have hl : ms.getLast?.getD ((n1 ++ n2).getLast?.getD 0) =
        (n1 ++ (n2 ++ ms)).getLast?.getD 0 := by
      rw [← List.append_assoc]
      cases h : ms.getLast? with
      | none => rw [List.getLast?_eq_none_iff.1 h]; simp
      | some k => simp [List.getLast?_append, h]
    rw [hl]
    refine position_rows h1 ?_
    intro m hm
    rcases List.mem_append.1 hm with hm | hm
    · exact h2 m hm
    · have := (hb' m hm).1; omega
  rw [key, key]

theorem updatePositions_prefix {p u1 u2 : Txt} {pos span n} (hn : n ≤ blen p) :
    updatePositions (p ++ u1) pos span n = updatePositions (p ++ u2) pos span n := by
  unfold updatePositions
  simp only [sliceB_prefix hn]

/-! ## Two scanners that agree up to an item -/

/-- Two scans that agree up to and including the item `x`. -/
structure Cut where
  good : Item → Prop
  x : Tok
  r1 : List Tok
  r2 : List Tok
  text1 : Txt
  text2 : Txt
  lines1 : List Line
  lines2 : List Line
  pend2 : Bool

theorem Sim.post_le {S : Sim} {α : Type} {d : Bool} {Q : α → Prop} {t s' : St} {r r' : Res α}
    (hm : mu t ≤ mu s') (h : S.post d Q t r r') : S.post d Q s' r r' := by
  cases r with
  | ok a u => exact ⟨h.1, h.2.imp id fun ⟨u', h1, h2, h3⟩ => ⟨u', h1, h2, by omega⟩⟩
  | err e u => exact h.imp id fun ⟨e', u', h1, h2, h3, h4⟩ => ⟨e', u', h1, h2, h3, by omega⟩
  | _ => trivial

/-- Reading an item makes progress. -/
theorem Sim.post_next {S : Sim} {Q : Item → Prop} {s' : St} {r : Res Item}
    (h : S.post false Q s' r (Ressa.nextItem s')) : S.post true Q s' r (Ressa.nextItem s') := by
  have hm := nextItem_mu s'
  cases r with
  | ok a u =>
    refine ⟨h.1, h.2.imp id fun ⟨u', h1, h2, h3⟩ => ⟨u', h1, h2, ?_⟩⟩
    rw [h1] at hm
    exact hm
  | err e u => exact h
  | _ => trivial

namespace Cut

/-- The same state on the other text. -/
def move (K : Cut) (z : List Tok) (s : St) : St :=
  { s with stream := K.text2, lines := K.lines2, rest := z ++ K.x :: K.r2, pendEnd := K.pend2 }

/-- The simulation: the first run has not read `x` yet. -/
def sim (K : Cut) : Sim where
  good := K.good
  R s s' := ∃ z, s.rest = z ++ K.x :: K.r1 ∧ (∀ t ∈ z, K.good t.item) ∧ K.good s.look ∧
    s.stream = K.text1 ∧ s.lines = K.lines1 ∧ s' = K.move z s
  out t := t.rest <:+ K.r1 ∧ K.good t.look ∧ t.stream = K.text1
  sameErr e e' := e' = e

/-- What the two texts share. -/
structure Ok (K : Cut) : Prop where
  x : K.x.item.token.isComment = false
  good : K.good K.x.item
  update {pos i j} : K.good i → K.good j →
    updatePositions K.text2 pos i.span j.span.start = updatePositions K.text1 pos i.span j.span.start
  slice {i} : K.good i → sliceB K.text2 i.span.start i.span.stop =
    sliceB K.text1 i.span.start i.span.stop
  pos {i} : K.good i →
    getItemPosition K.lines2 i.span.start = getItemPosition K.lines1 i.span.start
  tail : (∀ i, K.good i) ∨ ∃ bad, K.r1 = [bad] ∧
    ∀ pos span, updatePositions K.text1 pos span bad.item.span.start = none

variable {K : Cut} (H : Ok K)
include H

theorem peek : ∀ (z : List Tok) (r : List Tok), peekSkipComments (z ++ K.x :: r) =
    some ((z ++ [K.x]).find? (fun t => !t.item.token.isComment) |>.getD K.x).item
  | [], r => by simp [peekSkipComments, H.x]
  | t :: z, r => by
    have ih := peek z r
    rw [List.cons_append, peekSkipComments]
    by_cases ht : t.item.token.isComment = true
    · rw [if_pos ht, ih, List.cons_append, List.find?_cons_of_neg (by simp [ht])]
    · rw [if_neg ht, List.cons_append, List.find?_cons_of_pos (by simp [ht])]
      rfl

omit H in
theorem nextItemGo_token {span : Span} {t : Tok} {ts : List Tok} {s : St}
    (ht : t.item.token.isComment = false) : nextItemGo span (t :: ts) s =
      match updatePositions s.stream s.lookPos span t.item.span.start with
      | none => .panic
      | some (cur, look) => .ok s.look { s with
          rest := ts, ctx := { s.ctx with hasLineTerm := t.nl }, curPos := cur, lookPos := look
          look := t.item } := by
  unfold nextItemGo
  dsimp only
  cases updatePositions s.stream s.lookPos span t.item.span.start with
  | none => rfl
  | some c =>
    simp only
    split
    · next h => rw [h] at ht; cases ht
    · rfl

omit H in
theorem nextItemGo_comment {span : Span} {t : Tok} {ts : List Tok} {s : St} {kind}
    (ht : t.item.token = .comment kind) : nextItemGo span (t :: ts) s =
      match updatePositions s.stream s.lookPos span t.item.span.start with
      | none => .panic
      | some (cur, look) =>
        match sliceB s.stream t.item.span.start t.item.span.stop with
        | none => .err (.operationError cur t!"Unable to get string") { s with
            rest := ts, ctx := { s.ctx with hasLineTerm := t.nl }, curPos := cur, lookPos := look }
        | some c => nextItemGo t.item.span ts { s with
            rest := ts, ctx := { s.ctx with hasLineTerm := t.nl }, curPos := cur, lookPos := look
            comments := s.comments ++ [(kind, c, t.item.span)] } := by
  rw [nextItemGo.eq_2]
  dsimp only
  cases updatePositions s.stream s.lookPos span t.item.span.start with
  | none => rfl
  | some c =>
    simp only
    rw [ht]
    cases sliceB s.stream t.item.span.start t.item.span.stop <;> rfl

theorem nextGo : ∀ (z : List Tok) (i : Item) (s : St), s.stream = K.text1 → s.lines = K.lines1 →
    K.good i → (∀ t ∈ z, K.good t.item) → K.good s.look →
    K.sim.post false K.good (K.move z s) (nextItemGo i.span (z ++ K.x :: K.r1) s)
      (nextItemGo i.span (z ++ K.x :: K.r2) (K.move z s))
  | [], i, s, hs, hl, hi, hz, hk => by
    rw [List.nil_append, nextItemGo_token H.x]
    cases hu : updatePositions s.stream s.lookPos i.span K.x.item.span.start with
    | none => trivial
    | some c => exact ⟨hk, .inl ⟨List.suffix_refl _, H.good, hs⟩⟩
  | t :: z, i, s, hs, hl, hi, hz, hk => by
    have ht : K.good t.item := hz t (by simp)
    have hz' : ∀ t ∈ z, K.good t.item := fun u hu => hz u (by simp [hu])
    have e : updatePositions (K.move (t :: z) s).stream (K.move (t :: z) s).lookPos i.span
        t.item.span.start = updatePositions s.stream s.lookPos i.span t.item.span.start := by
      rw [hs]; exact H.update hi ht
    have e' : sliceB (K.move (t :: z) s).stream t.item.span.start t.item.span.stop =
        sliceB s.stream t.item.span.start t.item.span.stop := by
      rw [hs]; exact H.slice ht
    rw [List.cons_append, List.cons_append]
    by_cases hc : t.item.token.isComment = true
    · obtain ⟨kind, hk'⟩ : ∃ k, t.item.token = .comment k := by
        cases h : t.item.token <;> rw [h] at hc <;> cases hc
        exact ⟨_, rfl⟩
      rw [nextItemGo_comment hk', nextItemGo_comment hk', e, e']
      cases updatePositions s.stream s.lookPos i.span t.item.span.start with
      | none => trivial
      | some c =>
        simp only
        cases sliceB s.stream t.item.span.start t.item.span.stop with
        | none =>
          exact .inr ⟨_, _, rfl, rfl, ⟨z, rfl, hz', hk, hs, hl, rfl⟩, by simp [mu, move]⟩
        | some c =>
          simp only
          exact Sim.post_le (by cases h : s.foundEof <;> simp [mu, move, h]) (nextGo z t.item _ hs hl ht hz' hk)
    · rw [nextItemGo_token (by simpa using hc), nextItemGo_token (by simpa using hc), e]
      cases updatePositions s.stream s.lookPos i.span t.item.span.start with
      | none => trivial
      | some c =>
        exact ⟨hk, .inr ⟨_, rfl, ⟨z, rfl, hz', ht, hs, hl, rfl⟩, by simp [mu, move]⟩⟩

theorem next {s s'} (h : K.sim.R s s') :
    K.sim.post true K.sim.good s' (nextItem s) (nextItem s') := by
  refine Sim.post_next ?_
  obtain ⟨z, hr, hz, hk, hs, hl, rfl⟩ := h
  have := nextGo H z s.look s hs hl hk hz hk
  rw [← hr] at this
  exact this

theorem nextOut {s} (h : K.sim.out s) : K.sim.stay K.sim.good (nextItem s) := by
  obtain ⟨h1, h2, h3⟩ := h
  have key : ∀ {span ts t r}, Next span ts t r → ts <:+ K.r1 → K.good t.look → t.stream = K.text1 →
      K.sim.stay K.good r := by
    intro span ts t r hn
    induction hn with
    | eof => exact fun _ h2 h3 => ⟨h2, List.nil_suffix, h2, h3⟩
    | after => exact fun _ h2 h3 => ⟨List.nil_suffix, h2, h3⟩
    | missing => exact fun _ h2 h3 => ⟨List.nil_suffix, h2, h3⟩
    | bad => exact fun _ _ _ => trivial
    | badComment => exact fun h1 h2 h3 => ⟨(List.suffix_cons _ _).trans h1, h2, h3⟩
    | comment _ _ _ _ ih => exact fun h1 h2 h3 => ih ((List.suffix_cons _ _).trans h1) h2 h3
    | @token span t ts s cur look hu ht =>
      intro h1 h2 h3
      refine ⟨h2, (List.suffix_cons _ _).trans h1, ?_, h3⟩
      rcases H.tail with hg | ⟨bad, hb, hp⟩
      · exact hg _
      · rw [hb] at h1
        obtain ⟨z, hz⟩ := h1
        cases z with
        | nil =>
          injection hz with hz _
          rw [hz, h3, hp] at hu
          cases hu
        | cons _ z => simp at hz
  exact key (nextItem_spec s) h1 h2 h3

omit H in
theorem head (z r : List Tok) : (z ++ K.x :: r).head? = some ((z ++ [K.x]).head?.getD K.x) := by
  cases z <;> rfl

theorem async {s s'} (h : K.sim.R s s') :
    K.sim.post false Any s' (atAsyncFunction s) (atAsyncFunction s') := by
  have hr := h
  obtain ⟨z, hrest, hz, hk, hs, hl, rfl⟩ := h
  rw [atAsyncFunction_eq, atAsyncFunction_eq]
  rw [show sliceB (K.move z s).stream (K.move z s).look.span.start (K.move z s).look.span.stop =
    sliceB s.stream s.look.span.start s.look.span.stop from by rw [hs]; exact H.slice hk]
  cases sliceB s.stream s.look.span.start s.look.span.stop with
  | none => trivial
  | some c =>
    have hg : K.good ((z ++ [K.x]).head?.getD K.x).item := by
      cases z with
      | nil => exact H.good
      | cons t z => exact hz t (by simp)
    have same : ∀ b : Bool, K.sim.post false Any (K.move z s) (.ok b s) (.ok b (K.move z s)) :=
      fun b => ⟨trivial, .inr ⟨_, rfl, hr, Nat.le_refl _⟩⟩
    simp only
    split
    · rw [hrest, show (K.move z s).rest = z ++ K.x :: K.r2 from rfl, head z K.r1, head z K.r2]
      simp only
      rw [hl, show (K.move z s).lines = K.lines2 from rfl, H.pos hg]
      cases getItemPosition K.lines1 ((z ++ [K.x]).head?.getD K.x).item.span.start with
      | none => trivial
      | some p => exact same _
    · exact same _

/-- The simulation is one. -/
theorem ok : K.sim.Ok where
  errRefl _ := rfl
  look := by rintro s s' ⟨z, h1, h2, h3, h4, h5, rfl⟩; exact ⟨rfl, h3⟩
  lookOut h := h.2.1
  ctx := by rintro s s' ⟨z, h1, h2, h3, h4, h5, rfl⟩; rfl
  ctxMod c := by rintro ⟨z, h1, h2, h3, h4, h5, rfl⟩; exact ⟨z, h1, h2, h3, h4, h5, rfl⟩
  ctxOut _ h := h
  ext := by rintro s s' ⟨z, h1, h2, h3, h4, h5, rfl⟩; rfl
  tolerant := by rintro s s' ⟨z, h1, h2, h3, h4, h5, rfl⟩; rfl
  isModule := by rintro s s' ⟨z, h1, h2, h3, h4, h5, rfl⟩; rfl
  lookPos := by rintro s s' ⟨z, h1, h2, h3, h4, h5, rfl⟩; rfl
  cur := by rintro s s' k ⟨z, h1, h2, h3, h4, h5, rfl⟩ _; rfl
  slice := by rintro s s' i ⟨z, h1, h2, h3, h4, h5, rfl⟩ hi; rw [h4]; exact H.slice hi
  pos := by rintro s s' i ⟨z, h1, h2, h3, h4, h5, rfl⟩ hi; rw [h5]; exact H.pos hi
  peek := by rintro s s' ⟨z, h1, h2, h3, h4, h5, rfl⟩; rw [h1, peek H]; exact peek H z K.r2
  async := async H
  next := next H
  nextOut := nextOut H

omit H in
theorem sames {rs rs'} (h : Sim.Sames K.sim rs rs') : rs' = rs := by
  induction h with
  | nil => rfl
  | cons h _ ih =>
    rw [ih]
    cases h with
    | nextErr h => rw [show _ = _ from h]
    | parseErr h => rw [show _ = _ from h]
    | exprErr h => rw [show _ = _ from h]
    | _ => rfl

theorem transfer {s s0 s1 s' : St} {rs} (hb : skipItem s = .ok () s0) (hs : Session s0 rs s1)
    (hn : ¬ K.sim.out s1) (hr : K.sim.R s s') :
    ∃ t0 t, skipItem s' = .ok () t0 ∧ Session t0 rs t ∧ K.sim.R s1 t := by
  have h := hb ▸ (Sim.skipItem (ok H)).1 s s' hr
  obtain ⟨_, ho | ⟨t0, h1, h2, _⟩⟩ := h
  · exact absurd (Sim.session_out (ok H) hs ho) hn
  · obtain ⟨rs', t, k1, k2, k3⟩ := Sim.session (ok H) hs hn t0 h2
    rw [sames k2] at k1
    exact ⟨t0, t, h1, k1, k3⟩

end Cut

/-! ## C42 -/

/-- What a reading past the cut runs into in the auxiliary run. -/
def badTok (n : Nat) : Tok := ⟨false, ⟨.eof, ⟨n + 1, n + 1⟩⟩⟩

theorem updatePositions_bad {t : Txt} {pos span} :
    updatePositions t pos span (badTok (blen t)).item.span.start = none := by
  unfold updatePositions
  rw [show sliceB t span.start (badTok (blen t)).item.span.start = none from
    sliceB_none_iff.2 fun ⟨_, h, _⟩ => by
      obtain ⟨a, b, e, h⟩ := h
      have := congrArg blen e
      simp [badTok] at this h
      omega]
  rfl

/-- An item that lies inside a text. -/
def Inside (p : Txt) (i : Item) : Prop := i.span.start < blen p ∧ i.span.stop ≤ blen p

/-- C42: let two texts agree on `p`, and let the scanner yield on both the same items up to the item
`x`, all of which lie in `p`.  Whatever calls on a parser of the first text return, as long as it has
not read `x`, the same calls on a parser of the second text return too. -/
theorem later_text_irrelevant {L : Lexer} {tolerant isModule : Bool} {p u1 u2 : Txt}
    {q r1 r2 : List Tok} {x : Tok} (hcr : p.getLast? ≠ some '\r')
    (h1 : L.scan (p ++ u1) = q ++ x :: r1) (h2 : L.scan (p ++ u2) = q ++ x :: r2)
    (hx : x.item.token.isComment = false) (hin : ∀ t ∈ q ++ [x], Inside p t.item)
    {s0 s : St} {rs : List Reply}
    (hb : Builder.build ⟨tolerant, isModule, p ++ u1⟩ L = .ok () s0) (hs : Session s0 rs s)
    (hu : r1.length < s.rest.length) :
    ∃ t0 t, Builder.build ⟨tolerant, isModule, p ++ u2⟩ L = .ok () t0 ∧ Session t0 rs t ∧
      t.comments = s.comments := by
  let A : Cut := ⟨fun _ => True, x, r1, [badTok (blen (p ++ u1))], p ++ u1, p ++ u1,
    getLines (p ++ u1), getLines (p ++ u1), false⟩
  let B : Cut := ⟨Inside p, x, [badTok (blen (p ++ u1))], r2, p ++ u1, p ++ u2,
    getLines (p ++ u1), getLines (p ++ u2), L.pendEnd (p ++ u2)⟩
  have hA : A.Ok := ⟨hx, trivial, fun _ _ => rfl, fun _ => rfl, fun _ => rfl, .inl fun _ => trivial⟩
  have hB : B.Ok := by
    refine ⟨hx, hin x (by simp), fun _ h => ?_, fun h => ?_, fun h => position_prefix hcr h.1 _ _,
      .inr ⟨_, rfl, fun _ _ => updatePositions_bad⟩⟩
    · exact updatePositions_prefix (Nat.le_of_lt h.1)
    · show sliceB (p ++ u2) _ _ = sliceB (p ++ u1) _ _
      rw [sliceB_prefix h.2, sliceB_prefix h.2]
  have hA0 : ¬ A.sim.out s := fun h => by have := h.1.length_le; simp only [A] at this; omega
  obtain ⟨m0, m, k1, k2, k3⟩ := A.transfer hA hb hs hA0
    (s' := A.move q (initState L tolerant isModule (p ++ u1) (getLines (p ++ u1))))
    ⟨q, h1, fun _ _ => trivial, trivial, rfl, rfl, rfl⟩
  have hB0 : ¬ B.sim.out m := by
    intro h
    obtain ⟨z, _, _, _, _, _, rfl⟩ := k3
    have := h.1.length_le
    simp [A, B, Cut.move] at this
  obtain ⟨t0, t, j1, j2, j3⟩ := B.transfer hB k1 k2 hB0
    (s' := initState L tolerant isModule (p ++ u2) (getLines (p ++ u2)))
    ⟨q, rfl, fun t ht => hin t (by simp [ht]), ⟨by have := (hin x (by simp)).1; simp [A, Cut.move, initState]; omega, by simp [A, Cut.move, initState]⟩, rfl, rfl, by
      simp [B, A, Cut.move, initState, h2]⟩
  refine ⟨t0, t, j1, j2, ?_⟩
  obtain ⟨_, _, _, _, _, _, rfl⟩ := k3
  obtain ⟨_, _, _, _, _, _, rfl⟩ := j3
  rfl

/-- The pieces of `a; b + c` and `a; b + )`. -/
def cutDemo (last : Demo.Piece) : List Demo.Piece :=
  [Demo.id t!"a", Demo.p .semiColon t!";", Demo.id t!"b", Demo.p .plus t!"+", last]

/-- A scanner for the two texts. -/
def cutLexer : Lexer where
  ext := Demo.ext
  scan t := if t = Demo.text (cutDemo (Demo.id t!"c")) then Demo.items (cutDemo (Demo.id t!"c")) 0
    else Demo.items (cutDemo (Demo.p .closeParen t!")")) 0
  pendEnd _ := false

/-- The parser of `a; b + c` right after construction. -/
def cutStart : St := match Builder.build ⟨false, false, t!" a ; b +" ++ t!" c"⟩ cutLexer with
  | .ok _ s => s
  | _ => initState cutLexer false false [] []

/-- C42 on `a; b + c` and `a; b + )`: the first statement is the same. -/
example : ∃ t0 t, Builder.build ⟨false, false, t!" a ; b +" ++ t!" )"⟩ cutLexer = .ok () t0 ∧
    Session t0 [.nextOk (some (.stmt (.expr (.ident t!"a"))))] t := by
  have h0 : Builder.build ⟨false, false, t!" a ; b +" ++ t!" c"⟩ cutLexer = .ok () cutStart := by
    kernel_rfl
  have h1 : next cutStart = .ok (some (.stmt (.expr (.ident t!"a")))) (Demo.after next cutStart) := by
    kernel_rfl
  have h2 : decide (2 < (Demo.after next cutStart).rest.length) = true := by kernel_rfl
  obtain ⟨t0, t, k1, k2, _⟩ := later_text_irrelevant (p := t!" a ; b +") (u1 := t!" c") (u2 := t!" )")
    (q := (Demo.items (cutDemo (Demo.id t!"c")) 0).take 3)
    (x := ⟨false, .punct .plus, 7, 8⟩) (r1 := (Demo.items (cutDemo (Demo.id t!"c")) 0).drop 4)
    (r2 := (Demo.items (cutDemo (Demo.p .closeParen t!")")) 0).drop 4) (by decide) (by kernel_rfl)
    (by kernel_rfl) rfl (by simp [Demo.items, cutDemo, Inside, Demo.id, Demo.p]; decide) h0 (.nextOk h1 .nil)
    (of_decide_eq_true h2)
  exact ⟨t0, t, k1, k2⟩

end Ressa
