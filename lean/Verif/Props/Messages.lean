import Verif.Model.Display
import Verif.Props.Spacing

/-!
# Error messages (C55)

The text of an error determines its kind, its position and what else it reports; the position is
that of an item of the source.
-/

namespace Ressa

/-- The two errors report the same: they are of the same kind, at the same position, and carry the
same texts.  Of `UnableToReinterpret` the two texts are determined together. -/
inductive SameReport (D : Debug) : Error → Error → Prop
  | unexpectedToken (p) {m m' : Msg} : m.display D = m'.display D →
    SameReport D (.unexpectedToken p m) (.unexpectedToken p m')
  | unexpectedEoF : SameReport D .unexpectedEoF .unexpectedEoF
  | parseAfterEoF : SameReport D .parseAfterEoF .parseAfterEoF
  | unableToReinterpret (p) {a b a' b' : Txt} : a ++ t!" to " ++ b = a' ++ t!" to " ++ b' →
    SameReport D (.unableToReinterpret p a b) (.unableToReinterpret p a' b')
  | redecl (p t) : SameReport D (.redecl p t) (.redecl p t)
  | operationError (p t) : SameReport D (.operationError p t) (.operationError p t)
  | invalidGetterParams (p) : SameReport D (.invalidGetterParams p) (.invalidGetterParams p)
  | invalidSetterParams (p) : SameReport D (.invalidSetterParams p) (.invalidSetterParams p)
  | nonStrict (p t) : SameReport D (.nonStrictFeatureInStrictContext p t)
      (.nonStrictFeatureInStrictContext p t)

/-! ## Positions as text -/

theorem showNat_inj {m n : Nat} (h : showNat m = showNat n) : m = n := by
  have := congrArg (fun l => Nat.ofDigitChars 10 l 0) h
  simpa [showNat, Nat.ofDigitChars_toDigits] using this

theorem isDigit_showNat {n : Nat} {c : Char} (h : c ∈ showNat n) : c.isDigit = true :=
  Nat.isDigit_of_mem_toDigits (by decide) (by decide) h

/-- Two texts that begin with characters of a class, up to the first that is not. -/
theorem cut_unique {q : Char → Bool} : ∀ {a a' x x' : Txt} {d d' : Char}, (∀ c ∈ a, q c = true) →
    (∀ c ∈ a', q c = true) → q d = false → q d' = false → a ++ d :: x = a' ++ d' :: x' →
    a = a' ∧ d = d' ∧ x = x'
  | [], [], _, _, _, _, _, _, _, _, h => by simpa using h
  | [], c :: a', _, _, d, d', _, h2, h3, _, h => by
    simp only [List.nil_append, List.cons_append, List.cons.injEq] at h
    have := h2 c (by simp)
    rw [← h.1, h3] at this
    cases this
  | c :: a, [], _, _, d, d', h1, _, _, h4, h => by
    simp only [List.nil_append, List.cons_append, List.cons.injEq] at h
    have := h1 c (by simp)
    rw [h.1, h4] at this
    cases this
  | c :: a, c' :: a', _, _, d, d', h1, h2, h3, h4, h => by
    simp only [List.cons_append, List.cons.injEq] at h
    obtain ⟨rfl, h⟩ := h
    obtain ⟨rfl, r⟩ := cut_unique (fun x hx => h1 x (by simp [hx])) (fun x hx => h2 x (by simp [hx]))
      h3 h4 h
    exact ⟨rfl, r⟩

theorem Position.display_inj {p p' : Position} (h : p.display = p'.display) : p = p' := by
  obtain ⟨h1, _, h2⟩ := cut_unique (q := Char.isDigit) (fun _ => isDigit_showNat)
    (fun _ => isDigit_showNat) (by decide) (by decide) h
  cases p
  cases p'
  simp only [Position.mk.injEq]
  exact ⟨showNat_inj h1, showNat_inj h2⟩

/-- The characters of a position. -/
def posChar (c : Char) : Bool := c.isDigit || c == ':'

theorem posChar_display {p : Position} {c : Char} (h : c ∈ p.display) : posChar c = true := by
  simp only [Position.display, List.mem_append, List.mem_cons] at h
  rcases h with h | rfl | h
  · simp [posChar, isDigit_showNat h]
  · decide
  · simp [posChar, isDigit_showNat h]

/-- A position is cut off by the first character that cannot be part of one, or by a colon with
something after it that cannot. -/
theorem position_before {p p' : Position} {x x' : Txt} {d d' : Char} (hd : posChar d = false)
    (hd' : posChar d' = false) (h : p.display ++ d :: x = p'.display ++ d' :: x') :
    p = p' ∧ x = x' := by
  obtain ⟨h1, _, h2⟩ := cut_unique (fun _ => posChar_display) (fun _ => posChar_display) hd hd' h
  exact ⟨Position.display_inj h1, h2⟩

theorem position_before_colon {p p' : Position} {x x' : Txt}
    (h : p.display ++ ':' :: ' ' :: x = p'.display ++ ':' :: ' ' :: x') : p = p' ∧ x = x' := by
  have hq {p : Position} : ∀ c ∈ p.display ++ [':'], posChar c = true := by
    intro c hc
    rcases List.mem_append.1 hc with hc | hc
    · exact posChar_display hc
    · rw [List.mem_singleton.1 hc]; decide
  obtain ⟨h1, _, h2⟩ := cut_unique (a := p.display ++ [':']) (a' := p'.display ++ [':']) (d := ' ')
    (d' := ' ') hq hq (by decide) (by decide) (by simpa using h)
  exact ⟨Position.display_inj (List.append_cancel_right h1), h2⟩

theorem position_behind {p p' : Position} {x x' : Txt}
    (h : x ++ ' ' :: p.display = x' ++ ' ' :: p'.display) : p = p' ∧ x = x' := by
  have hr := congrArg List.reverse h
  simp only [List.reverse_append, List.reverse_cons, List.append_assoc, List.cons_append,
    List.nil_append] at hr
  obtain ⟨h1, _, h2⟩ := cut_unique (q := posChar) (fun c hc => posChar_display (List.mem_reverse.1 hc))
    (fun c hc => posChar_display (List.mem_reverse.1 hc)) (by decide) (by decide) hr
  exact ⟨Position.display_inj (List.reverse_inj.1 h1), List.reverse_inj.1 h2⟩

/-! ## C55 -/

/-- C55: errors that are shown by the same text report the same. -/
theorem message_unambiguous (D : Debug) {e e' : Error} (h : e.display D = e'.display D) :
    SameReport D e e' := by
  cases e <;> cases e' <;>
    simp only [Error.display, List.cons_append, List.nil_append, List.cons.injEq, reduceCtorEq,
      and_false, false_and, true_and, List.append_assoc, Char.reduceEq] at h
  case unexpectedToken.unexpectedToken =>
    obtain ⟨rfl, k⟩ := position_before_colon h
    exact .unexpectedToken _ k
  case unexpectedEoF.unexpectedEoF => exact .unexpectedEoF
  case parseAfterEoF.parseAfterEoF => exact .parseAfterEoF
  case unableToReinterpret.unableToReinterpret p a b p' a' b' =>
    obtain ⟨rfl, k⟩ := position_behind (x := a ++ t!" to " ++ b ++ t!" at")
      (x' := a' ++ t!" to " ++ b' ++ t!" at") (by simpa using h)
    exact .unableToReinterpret _ (List.append_cancel_right k)
  case redecl.redecl =>
    obtain ⟨rfl, k⟩ := position_before (by decide) (by decide) h
    simp only [List.cons.injEq, true_and] at k
    rw [k]
    exact .redecl _ _
  case operationError.operationError =>
    obtain ⟨rfl, rfl⟩ := position_before_colon h
    exact .operationError _ _
  case invalidGetterParams.invalidGetterParams =>
    obtain ⟨rfl, _⟩ := position_before (by decide) (by decide) h
    exact .invalidGetterParams _
  case invalidSetterParams.invalidSetterParams =>
    obtain ⟨rfl, _⟩ := position_before (by decide) (by decide) h
    exact .invalidSetterParams _
  case nonStrictFeatureInStrictContext.nonStrictFeatureInStrictContext p a p' a' =>
    obtain ⟨rfl, k⟩ := position_behind (x := a ++ t!" in a strict context at")
      (x' := a' ++ t!" in a strict context at") (by simpa using h)
    rw [List.append_cancel_right k]
    exact .nonStrict _ _

/-- C55 for the errors that calls return: errors shown by the same text are equal, except that the
message of an unexpected-token error is only determined as a text. -/
theorem message_identifies (D : Debug) {L L' : Lexer} {b b' : Builder} {s t s' t' : St}
    {e e' : Error} (hok : ScannerOk b.js (L.scan b.js)) (hok' : ScannerOk b'.js (L'.scan b'.js))
    (hs : Reachable L b s) (hs' : Reachable L' b' s') (hf : Fails s e t) (hf' : Fails s' e' t')
    (h : e.display D = e'.display D) :
    e = e' ∨ ∃ p m m', e = .unexpectedToken p m ∧ e' = .unexpectedToken p m' ∧
      m.display D = m'.display D := by
  have k := (error_kinds hok hs hf).2.2.2.2.1
  have k' := (error_kinds hok' hs' hf').2.2.2.2.1
  cases message_unambiguous D h with
  | unexpectedToken p hm => exact .inr ⟨_, _, _, rfl, rfl, hm⟩
  | unableToReinterpret p _ =>
    obtain ⟨rfl, rfl⟩ := k _ _ _ rfl
    obtain ⟨rfl, rfl⟩ := k' _ _ _ rfl
    exact .inl rfl
  | _ => exact .inl rfl

/-- The position an error carries. -/
def Error.position : Error → Option Position
  | .unexpectedToken p _ | .unableToReinterpret p _ _ | .redecl p _ | .operationError p _
  | .invalidGetterParams p | .invalidSetterParams p | .nonStrictFeatureInStrictContext p _ => some p
  | .unexpectedEoF | .parseAfterEoF => none

/-- The error of a reply. -/
def Reply.error : Reply → Option Error
  | .nextErr e | .parseErr e | .exprErr e => some e
  | .nextOk _ | .parseOk _ | .exprOk _ => none

theorem session_same {place : Position → Position → Prop} {s t : St} {rs : List Reply}
    (h : Session s rs t) : ∀ {t' rs'}, Session s rs' t' → RepliesAlike place rs rs' → rs = rs' := by
  induction h with
  | nil => intro t' rs' _ h; cases h; rfl
  | nextOk e _ ih => 
    intro t' rs' k h
    cases h with | cons h hs => cases h; cases k with | nextOk e' k => rw [e] at e'; cases e'; rw [ih k hs]
  | parseOk e _ ih => 
    intro t' rs' k h
    cases h with | cons h hs => cases h; cases k with | parseOk e' k => rw [e] at e'; cases e'; rw [ih k hs]
  | exprOk e _ ih => 
    intro t' rs' k h
    cases h with | cons h hs => cases h; cases k with | exprOk e' k => rw [e] at e'; cases e'; rw [ih k hs]
  | nextErr e _ ih => 
    intro t' rs' k h
    cases h with | cons h hs => cases h; cases k with | nextErr e' k => rw [e] at e'; cases e'; rw [ih k hs]
  | parseErr e _ ih => 
    intro t' rs' k h
    cases h with | cons h hs => cases h; cases k with | parseErr e' k => rw [e] at e'; cases e'; rw [ih k hs]
  | exprErr e _ ih => 
    intro t' rs' k h
    cases h with | cons h hs => cases h; cases k with | exprErr e' k => rw [e] at e'; cases e'; rw [ih k hs]

theorem SamePlace.self {all : List Tok} {t t' : Tok} (h : SamePlace all all t t') : t = t' := by
  obtain ⟨k, h1, h2⟩ := h
  exact Option.some.inj (h1.symm.trans h2)

theorem SameTokens.refl (text : Txt) (all : List Tok) : SameTokens text all text all where
  length := rfl
  nl h := by rw [h.self]
  kind h := by rw [h.self]
  slice h := by rw [h.self]
  line h k h1 h2 k1 k2 := by
    cases h.self
    cases k.self
    rw [h1.unique h2, k1.unique k2]

theorem ErrorAlike.position {place : Position → Position → Prop} {e : Error} {p : Position}
    (h : ErrorAlike place e e) (hp : e.position = some p) : place p p := by
  cases h <;> cases hp <;> assumption

theorem RepliesAlike.error {place : Position → Position → Prop} {rs : List Reply} {r : Reply}
    {e : Error} (h : RepliesAlike place rs rs) (hr : r ∈ rs) (he : r.error = some e) :
    ErrorAlike place e e := by
  induction rs with
  | nil => cases hr
  | cons r' rs ih =>
    cases h with
    | cons h hs =>
      rcases List.mem_cons.1 hr with rfl | hr
      · cases h <;> cases he <;> assumption
      · exact ih hs hr

/-- C55: the position of an error is the line and column of an item of the source, or of the start
of the text. -/
theorem position_of_item {L : Lexer} {b : Builder} (hlf : Breaks b.js (L.scan b.js))
    (hok : ScannerOk b.js (L.scan b.js)) (hn : NoLeadingBreak b.js (L.scan b.js))
    {s0 s : St} {rs : List Reply} (hb : b.build L = .ok () s0) (hs : Session s0 rs s)
    {r : Reply} {e : Error} {p : Position} (hr : r ∈ rs) (he : r.error = some e)
    (hp : e.position = some p) :
    p = ⟨1, 0⟩ ∨ ∃ t ∈ L.scan b.js, PosAt b.js t.item.span.start p := by
  obtain ⟨t0, t, rs', k1, k2, k3, _⟩ := layout_irrelevant (tolerant := b.tolerant)
    (isModule := b.isModule) hlf hlf hok hok hn hn (.refl _ _) rfl hb hs
  rw [show Builder.build ⟨b.tolerant, b.isModule, b.js⟩ L = b.build L from rfl, hb] at k1
  cases k1
  cases session_same hs k2 k3
  rcases (k3.error hr he).position hp with ⟨h, _⟩ | ⟨t, t', h, h1, _⟩
  · exact .inl h
  · obtain ⟨k, h2, _⟩ := h
    exact .inr ⟨t, List.mem_of_getElem? h2, h1⟩

/-! ## Cases that meet the hypotheses -/

/-- Some rendering. -/
def someDebug : Debug := ⟨fun _ => t!"Ident", fun _ => t!"Punct", fun _ => t!"Keyword"⟩

/-- C55 on `a;⏎b c` with CR LF: the hypotheses hold, and the error reads as follows. -/
example :
    let all := spacingLexer.scan spacingText'
    Breaks spacingText' all ∧ ScannerOk spacingText' all ∧ NoLeadingBreak spacingText' all ∧
    (match Builder.build ⟨false, false, spacingText'⟩ spacingLexer with
      | .ok _ s => match parse s with
        | .err e _ => some (e.display someDebug)
        | _ => none
      | _ => none) =
        some t!"Unexpected Token at 3:4: Expected ``;``, ``eof``, or ``}``; found Ident" := by
  refine ⟨spacing_breaks', spacing_scannerOk', spacing_noBreak', ?_⟩
  kernel_rfl

/-- A label that is already in use, as text. -/
example : (Error.redecl ⟨12, 30⟩ t!"a").display someDebug =
    t!"Nested label at 12:30 shadows parent: a" := by kernel_rfl

end Ressa
