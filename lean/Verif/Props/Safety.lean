import Verif.Props.Reading
import Verif.Props.Lines
import Verif.Proof.DemoOk

/-!
# No panics, and which errors there are (C02, C14, C16)
-/

namespace Ressa

theorem updatePositions_some {text : Txt} {pos : Position} {span : Span} {n : Nat}
    (h1 : IsBoundary text span.start) (h2 : IsBoundary text span.stop) (h3 : IsBoundary text n)
    (h4 : span.start ≤ span.stop) (h5 : span.stop ≤ n) :
    ∃ r, updatePositions text pos span n = some r := by
  obtain ⟨item, hi⟩ := sliceB_of_boundary h1 h2 h4
  obtain ⟨ws, hw⟩ := sliceB_of_boundary h2 h3 h5
  have hp := sliceB_append hi hw
  unfold updatePositions
  rw [hp, hw]
  simp only [Option.bind_eq_bind, Option.bind_some]
  have h := countCrlf_le ws
  have : (item ++ ws).countP isLineTerm = item.countP isLineTerm + ws.countP isLineTerm :=
    List.countP_append
  rw [if_neg (by omega)]
  split <;> exact ⟨_, rfl⟩

theorem splitLastSlash_none {t : Txt} (h : '/' ∉ t) : splitLastSlash t = none := by
  induction t with
  | nil => rfl
  | cons c t ih =>
    simp only [List.mem_cons, not_or] at h
    simp only [splitLastSlash, ih h.2]
    rw [if_neg]
    simp only [beq_iff_eq]
    exact fun e => h.1 e.symm

theorem splitLastSlash_append (a : Txt) {b : Txt} (h : '/' ∉ b) :
    splitLastSlash (a ++ '/' :: b) = some (a, b) := by
  induction a with
  | nil => simp [splitLastSlash, splitLastSlash_none h]
  | cons c a ih => simp [splitLastSlash, ih]

theorem sliceB_one {c : Char} (hc : c.utf8Size = 1) (a b : Txt) :
    sliceB (c :: (a ++ b)) 1 (1 + blen a) = some a :=
  sliceB_iff.2 ⟨[c], b, by simp, by simp [hc], by simp [hc]⟩

/-- A state that has read a non-empty prefix of the items, up to the look-ahead. -/
structure Reading (text : Txt) (all : List Tok) (s : St) : Prop where
  stream : s.stream = text
  lines : s.lines = getLines text
  look : ∃ pre t, all = pre ++ t :: s.rest ∧ s.look = t.item

theorem ScannerOk.mem_span {text : Txt} {all : List Tok} (hok : ScannerOk text all) {t : Tok}
    (ht : t ∈ all) : IsBoundary text t.item.span.start ∧ IsBoundary text t.item.span.stop ∧
      t.item.span.start ≤ t.item.span.stop := by
  obtain ⟨raw, h, _⟩ := hok.items t ht
  exact sliceB_boundary h

theorem ScannerOk.last_eof {text : Txt} {all pre : List Tok} {t : Tok} (hok : ScannerOk text all)
    (h : all = pre ++ [t]) : t.item.token = .eof := by
  obtain ⟨body, e, he, het, _⟩ := hok.last
  obtain ⟨_, h2⟩ := List.append_inj' (he.symm.trans h) rfl
  simp only [List.cons.injEq, and_true] at h2
  rwa [← h2]

theorem ScannerOk.after {text : Txt} {all pre ts : List Tok} {t : Tok} (hok : ScannerOk text all)
    (h : all = pre ++ t :: ts) : ∀ t' ∈ ts, t.item.span.stop ≤ t'.item.span.start := by
  have := hok.ordered
  rw [h, List.pairwise_append, List.pairwise_cons] at this
  exact this.2.1.1

theorem Next.safe {text : Txt} {all : List Tok} (hok : ScannerOk text all) {span ts s r}
    (h : Next span ts s r) : ∀ pre, s.stream = text → s.lines = getLines text →
      all = pre ++ ts →
      IsBoundary text span.start → IsBoundary text span.stop → span.start ≤ span.stop →
      (∀ t ∈ ts, span.stop ≤ t.item.span.start) →
      (ts = [] → ∃ p t, pre = p ++ [t] ∧ s.look = t.item) →
    r.Sat (fun i s' => i = s.look ∧ Reading text all s')
      (fun e s' => Reading text all s' ∧ e = .parseAfterEoF ∧ s'.foundEof = true ∧
        s.foundEof = true) False := by
  induction h with
  | eof _ _ =>
    intro pre h1 hl h2 _ _ _ _ h7
    obtain ⟨p, t, rfl, ht⟩ := h7 rfl
    exact ⟨rfl, h1, hl, p, t, by simpa using h2, ht⟩
  | after _ hf =>
    intro pre h1 hl h2 _ _ _ _ h7
    obtain ⟨p, t, rfl, ht⟩ := h7 rfl
    exact ⟨⟨h1, hl, p, t, by simpa using h2, ht⟩, rfl, hf, hf⟩
  | missing hm =>
    intro pre h1 hl h2 _ _ _ _ h7
    obtain ⟨p, t, rfl, ht⟩ := h7 rfl
    rw [ht, hok.last_eof (by simpa using h2)] at hm
    exact absurd hm (by decide)
  | @bad span t ts s hu =>
    intro pre h1 hl h2 h3 h4 h5 h6 _
    obtain ⟨b1, _, _⟩ := hok.mem_span (t := t) (by simp [h2])
    obtain ⟨r, hr⟩ := updatePositions_some (pos := s.lookPos) h3 h4 b1 h5 (h6 t (by simp))
    rw [h1, hr] at hu
    cases hu
  | @badComment span t ts s cur look kind hu ht hs =>
    intro pre h1 hl h2 h3 h4 h5 h6 _
    obtain ⟨raw, h, _⟩ := hok.items t (by simp [h2])
    rw [h1, h] at hs
    cases hs
  | @comment span t ts s cur look kind c r hu ht hs _ ih =>
    intro pre h1 hl h2 h3 h4 h5 h6 _
    obtain ⟨b1, b2, b3⟩ := hok.mem_span (t := t) (by simp [h2])
    refine ih (pre ++ [t]) h1 hl (by simpa using h2) b1 b2 b3 (hok.after h2) ?_
    rintro rfl
    have := hok.last_eof h2
    rw [ht] at this
    cases this
  | @token span t ts s cur look hu ht =>
    intro pre h1 hl h2 _ _ _ _ _
    exact ⟨rfl, h1, hl, pre, t, h2, rfl⟩

/-- The errors of a parser on the output of a scanner. -/
def ErrorOk (text : Txt) (all : List Tok) (e : Error) (s : St) : Prop :=
  match e with
  | .unexpectedToken p m => ∃ t ∈ all,
      getItemPosition (getLines text) t.item.span.start = some p ∧ m.About text t.item
  | .unexpectedEoF => False
  | .operationError _ _ => False
  | .parseAfterEoF => s.foundEof = true
  | .unableToReinterpret _ a b => a = t!"expression" ∧ b = t!"pattern"
  | .nonStrictFeatureInStrictContext _ t => t = t!"restriced ident" ∨ t = t!"with statements"
  | .redecl _ _ | .invalidGetterParams _ | .invalidSetterParams _ => True

/-- No panics. -/
def safeSys (text : Txt) (all : List Tok) : Sys where
  good i := ∃ t ∈ all, t.item = i
  inv := Reading text all
  ord _ _ := True
  errOk := ErrorOk text all
  panicOk := False

theorem getItemPosition_some {text : Txt} {n : Nat} : getItemPosition (getLines text) n ≠ none := by
  have hl : getLines text ≠ [] := by
    intro h
    have := (lines_cover text).2
    rw [h] at this
    cases this
  obtain ⟨r, hr⟩ := search_some (getLines text).length (getLines text) n 0 hl (by omega)
  simp [getItemPosition, hr]

theorem safeSys_ok {text : Txt} {all : List Tok} (hok : ScannerOk text all) :
    SysOk (safeSys text all) where
  refl _ := trivial
  trans _ _ := trivial
  ctxInv _ h := ⟨h.stream, h.lines, h.look⟩
  ctxOrd _ := trivial
  next {s} := by
    rintro ⟨h1, hl, pre, t, h2, h3⟩
    obtain ⟨b1, b2, b3⟩ := hok.mem_span (t := t) (by simp [h2])
    have := (nextItem_spec s).safe hok (pre ++ [t]) h1 hl (by simpa using h2)
      (h3 ▸ b1) (h3 ▸ b2) (h3 ▸ b3) (h3 ▸ hok.after h2) (fun _ => ⟨pre, t, rfl, h3⟩)
    revert this
    cases nextItem s with
    | ok a s' => rintro ⟨rfl, h⟩; exact ⟨h, trivial, t, by simp [h2], h3.symm⟩
    | err a s' => rintro ⟨h, rfl, hf, _⟩; exact ⟨h, trivial, hf⟩
    | panic => exact fun h => h
    | diverge => exact fun h => h
  look {s} h := by
    obtain ⟨pre, t, h2, h3⟩ := h.look
    exact ⟨t, by simp [h2], h3.symm⟩
  slice {s i} h hg hn := by
    obtain ⟨t, ht, rfl⟩ := hg
    obtain ⟨raw, hr, _⟩ := hok.items t ht
    rw [h.stream, hr] at hn
    cases hn
  pos h hg hn := by rw [h.lines] at hn; exact getItemPosition_some hn
  errPos {s i p m} h hg hp hm := by
    obtain ⟨t, ht, rfl⟩ := hg
    exact ⟨t, ht, h.lines ▸ hp, h.stream ▸ hm⟩
  peek h _ hn := by rw [h.lines] at hn; exact getItemPosition_some hn
  reinterpret _ := ⟨rfl, rfl⟩
  label _ _ := trivial
  fail h := by cases h <;> first | trivial | exact .inl rfl | exact .inr rfl
  template {s i raw} h hg hk hs := by
    obtain ⟨t, ht, rfl⟩ := hg
    obtain ⟨raw', hr, hshape⟩ := hok.items t ht
    rw [h.stream, hr] at hs
    cases hs
    obtain ⟨k, hk⟩ := hk
    rw [hk] at hshape ⊢
    have d1 : ('`').utf8Size = 1 := by decide
    have d2 : ('}').utf8Size = 1 := by decide
    have d3 : ('$').utf8Size = 1 := by decide
    have d4 : ('{').utf8Size = 1 := by decide
    have key : ∀ (c : Char) (a b : Txt) (n : Nat), c.utf8Size = 1 → n = 1 + blen a →
        sliceB (c :: (a ++ b)) 1 n ≠ none := by
      rintro c a b _ hc rfl
      rw [sliceB_one hc a b]
      exact nofun
    cases k <;> obtain ⟨mid, rfl⟩ := hshape
    · refine ⟨?_, fun _ => ?_⟩
      · rintro (h | h)
        · refine key _ (mid ++ ['$']) ['{'] _ d1 ?_ (by simpa using h)
          simp [d1, d3, d4]; omega
        · simp [d1] at h
      · rintro (h | h)
        · exact key _ mid ['$', '{'] _ d1 (by simp [d1, d3, d4]; omega) h
        · simp [d1, d3, d4] at h; omega
    · refine ⟨?_, fun _ => ?_⟩
      · rintro (h | h)
        · refine key _ (mid ++ ['$']) ['{'] _ d2 ?_ (by simpa using h)
          simp [d2, d3, d4]; omega
        · simp [d2] at h
      · rintro (h | h)
        · exact key _ mid ['$', '{'] _ d2 (by simp [d2, d3, d4]; omega) h
        · simp [d2, d3, d4] at h; omega
    · refine ⟨?_, by rintro (h | h) <;> cases h⟩
      rintro (h | h)
      · exact key _ mid ['`'] _ d2 (by simp [d1, d2]; omega) h
      · simp [d2] at h
    · refine ⟨?_, by rintro (h | h) <;> cases h⟩
      rintro (h | h)
      · exact key _ mid ['`'] _ d1 (by simp [d1]; omega) h
      · simp [d1] at h
  regex {s i} h hg hk := by
    obtain ⟨t, ht, rfl⟩ := hg
    obtain ⟨raw', hr, hshape⟩ := hok.items t ht
    rw [hk] at hshape
    obtain ⟨pat, flags, rfl, hf⟩ := hshape
    rw [h.stream, hr]
    have := splitLastSlash_append ('/' :: pat) hf
    simp only [List.cons_append] at this
    simp only [Option.getD_some, this]
    intro hn
    have d1 : ('/').utf8Size = 1 := by decide
    have h1 := sliceB_one d1 pat []
    simp [d1] at h1 hn
    rw [h1] at hn
    cases hn

/-- Building a parser on the output of a scanner succeeds. -/
theorem build_reading {L : Lexer} {b : Builder} (hok : ScannerOk b.js (L.scan b.js)) :
    ∃ s, b.build L = .ok () s ∧ Reading b.js (L.scan b.js) s := by
  have hne : L.scan b.js ≠ [] := by
    obtain ⟨body, e, he, _⟩ := hok.last
    simp [he]
  have h := (nextItem_spec (b.init L)).safe hok [] rfl rfl rfl
    (⟨[], b.js, rfl, rfl⟩) ⟨[], b.js, rfl, rfl⟩ (Nat.le_refl _)
    (fun _ _ => Nat.zero_le _) (fun h => absurd h hne)
  have e : b.build L = skipItem (b.init L) := rfl
  rw [e]
  unfold skipItem
  rw [bind_def]
  cases hn : nextItem (b.init L) with
  | ok a s' => rw [hn] at h; exact ⟨s', rfl, h.2⟩
  | err er s' =>
    rw [hn] at h
    exact absurd h.2.2.2 (by simp [initState])
  | panic => rw [hn] at h; exact h.elim
  | diverge => rw [hn] at h; exact h.elim

theorem reachable_reading {L : Lexer} {b : Builder} {s : St}
    (hok : ScannerOk b.js (L.scan b.js)) (h : Reachable L b s) : Reading b.js (L.scan b.js) s := by
  obtain ⟨s0, h0, hc⟩ := h
  obtain ⟨s1, h1, hr⟩ := build_reading hok
  rw [h0] at h1
  cases h1
  exact (Sys.calls (safeSys_ok hok) hc hr).2.1

/-! ## C02 -/

/-- C02: on the output of a scanner, building a parser succeeds. -/
theorem build_succeeds {L : Lexer} {b : Builder} (hok : ScannerOk b.js (L.scan b.js)) :
    ∃ s, b.build L = .ok () s :=
  (build_reading hok).imp fun _ h => h.1

/-- C02: on the output of a scanner, no call panics, whatever was called before. -/
theorem calls_do_not_panic {L : Lexer} {b : Builder} {s : St}
    (hok : ScannerOk b.js (L.scan b.js)) (h : Reachable L b s) :
    next s ≠ .panic ∧ parse s ≠ .panic ∧ full.expression s ≠ .panic := by
  have hi := reachable_reading hok h
  have H := safeSys_ok hok
  refine ⟨fun e => ?_, fun e => ?_, fun e => ?_⟩
  · have := Sys.next_post H hi; rw [e] at this; exact this
  · have := Sys.parse_post H hi; rw [e] at this; exact this
  · have := Sys.expression_post H hi; rw [e] at this; exact this

/-! ## C14 and C16 -/

/-- Some call in state `s` fails with `e` and leaves the parser in `s'`. -/
inductive Fails (s : St) (e : Error) (s' : St) : Prop
  | next : next s = .err e s' → Fails s e s'
  | parse : parse s = .err e s' → Fails s e s'
  | expression : full.expression s = .err e s' → Fails s e s'

theorem Fails.errorOk {L : Lexer} {b : Builder} {s s' : St} {e : Error}
    (hok : ScannerOk b.js (L.scan b.js)) (h : Reachable L b s) (hf : Fails s e s') :
    ErrorOk b.js (L.scan b.js) e s' := by
  have hi := reachable_reading hok h
  have H := safeSys_ok hok
  cases hf with
  | next e => have := Sys.next_post H hi; rw [e] at this; exact this.2.2.2
  | parse e => have := Sys.parse_post H hi; rw [e] at this; exact this.2.2.2
  | expression e => have := Sys.expression_post H hi; rw [e] at this; exact this.2.2.2

/-- C14: the position of an unexpected-token error is the one the line table gives for an item of
the scanner, and the message names the same item. -/
theorem unexpected_at_item {L : Lexer} {b : Builder} {s s' : St} {p : Position} {m : Msg}
    (hok : ScannerOk b.js (L.scan b.js)) (h : Reachable L b s)
    (hf : Fails s (.unexpectedToken p m) s') :
    ∃ t ∈ L.scan b.js, getItemPosition (getLines b.js) t.item.span.start = some p ∧
      m.About b.js t.item :=
  hf.errorOk hok h

/-- C14: if that item starts neither with a line terminator nor after a lone carriage return, the
position is the line and the column of its first character. -/
theorem unexpected_position {L : Lexer} {b : Builder} {s s' : St} {p : Position} {m : Msg}
    (hok : ScannerOk b.js (L.scan b.js)) (hcr : CrOk b.js)
    (hnl : ∀ t ∈ L.scan b.js, ∀ x u, b.js = x ++ u → blen x = t.item.span.start →
      u.head? ≠ some '\n' ∧ u.head? ≠ some '\r')
    (h : Reachable L b s) (hf : Fails s (.unexpectedToken p m) s') :
    ∃ t ∈ L.scan b.js, ∃ x u, b.js = x ++ u ∧ blen x = t.item.span.start ∧
      p = ⟨lineOf x, columnOf x⟩ ∧ m.About b.js t.item := by
  obtain ⟨t, ht, hp, hm⟩ := unexpected_at_item hok h hf
  obtain ⟨⟨x, u, hx, hl⟩, _, _⟩ := hok.mem_span ht
  obtain ⟨h1, h2⟩ := hnl t ht x u hx hl
  refine ⟨t, ht, x, u, hx, hl, ?_, hm⟩
  have := position_correct x u (hx ▸ hcr) h1 h2
  rw [← hx, hl, hp] at this
  exact Option.some.inj this

/-- C16: on the output of a scanner there is no `UnexpectedEoF`, no `OperationError`, no malformed
regular expression, `ParseAfterEoF` only when the end was consumed, and the other kinds carry fixed
texts. -/
theorem error_kinds {L : Lexer} {b : Builder} {s s' : St} {e : Error}
    (hok : ScannerOk b.js (L.scan b.js)) (h : Reachable L b s) (hf : Fails s e s') :
    e ≠ .unexpectedEoF ∧ (∀ p m, e ≠ .operationError p m) ∧
      (∀ p m, e ≠ .unexpectedToken p (.raw m)) ∧ (e = .parseAfterEoF → s'.foundEof = true) ∧
      (∀ p a b, e = .unableToReinterpret p a b → a = t!"expression" ∧ b = t!"pattern") ∧
      (∀ p t, e = .nonStrictFeatureInStrictContext p t →
        t = t!"restriced ident" ∨ t = t!"with statements") := by
  have := hf.errorOk hok h
  refine ⟨?_, ?_, ?_, ?_, ?_, ?_⟩
  · rintro rfl; exact this
  · rintro p m rfl; exact this
  · rintro p m rfl; obtain ⟨_, _, _, h⟩ := this; exact h
  · rintro rfl; exact this
  · rintro p a b rfl; exact this
  · rintro p t rfl; exact this

/-! ## Cases that meet the hypotheses -/

/-- A template with a hole and a regular expression. -/
example : ∃ ps : List Demo.Piece, ScannerOk (Demo.text ps) ((Demo.lexer ps).scan (Demo.text ps)) ∧
    (Demo.parse ps).isOk = true ∧ (Demo.items ps 0).length = 6 :=
  ⟨[⟨false, .template .head, t!"`é${"⟩, Demo.id t!"b", ⟨false, .template .tail, t!"}c`"⟩,
      Demo.p .semiColon t!";", ⟨true, .regex, t!"/a[/]/g"⟩],
    Demo.scannerOk (by
      simp only [List.forall_mem_cons]
      exact ⟨⟨nofun, t!"é", rfl⟩, ⟨nofun, trivial⟩, ⟨nofun, t!"c", rfl⟩, ⟨nofun, trivial⟩,
        ⟨nofun, t!"a[/]", t!"g", rfl, by decide⟩, nofun⟩),
    by kernel_rfl, by kernel_rfl⟩

/-- An error of each of the two kinds: at the third token, in line 2, and after the end. -/
example : (∃ ps, (Demo.parse ps).error? = some (.unexpectedToken ⟨2, 2⟩
        (.expected [.text t!"`;`", .text t!"`eof`", .text t!"`}`"] .ident)) ∧
      ScannerOk (Demo.text ps) ((Demo.lexer ps).scan (Demo.text ps))) ∧
    (∃ ps, (Demo.parse ps false true).error? = some .parseAfterEoF ∧
      ScannerOk (Demo.text ps) ((Demo.lexer ps).scan (Demo.text ps))) :=
  ⟨⟨[Demo.id t!"a", Demo.nl (Demo.id t!"b"), Demo.id t!"c"], by kernel_rfl, Demo.scannerOk (by
      simp only [List.forall_mem_cons]
      exact ⟨⟨nofun, trivial⟩, ⟨nofun, trivial⟩, ⟨nofun, trivial⟩, nofun⟩)⟩,
    ⟨[Demo.k .export, Demo.p .asterisk t!"*"], by kernel_rfl, Demo.scannerOk (by
      simp only [List.forall_mem_cons]
      exact ⟨⟨nofun, trivial⟩, ⟨nofun, trivial⟩, nofun⟩)⟩⟩

/-- A parser over items whose second span does not lie in the text. -/
def badSpans : St :=
  match Builder.build ⟨false, false, t!"a"⟩ { Demo.lexer [] with
    scan := fun _ => [⟨false, .ident, 0, 1⟩, ⟨false, .eof, 5, 5⟩] } with
  | .ok _ s => s
  | _ => Demo.state []

/-- Without the assumption on the scanner there are panics. -/
example : next badSpans = .panic := by kernel_rfl

end Ressa
