import Verif.Props.Modes

/-!
# What tolerance and script mode excuse (C44, C45)

C08 and C09 say that switching tolerance on or module mode off keeps every success.  Here: it also
keeps every error that is not on a short list.
-/

namespace Ressa

/-- The messages of the unexpected tokens that tolerance lets pass. -/
def toleratedMessages : List Txt :=
  [t!"restricted word", t!"restricted ident", t!"restricted ident in strict context",
   t!"Cannot increment when not at assignment target", t!"Cannot delete ident in strict mode",
   t!"Not at assignment target", []]

/-- The errors that tolerance may suppress: a missing comma, a missing closing parenthesis, the
wrong number of accessor parameters, a second `_proto_`, and the violations of the rules for strict
code, for assignment targets and for the place of a class or function declaration.  Looking for a
missing comma reads an item: this may also fail after the end of the text (`afterEof`) or, for
scanners that do not meet `ScannerOk`, because there is no end-of-text item (`noEof`) or a comment
is not a slice of the text (`comment`). -/
inductive Tolerated : Error → Prop
  | message {p name msg} : msg ∈ toleratedMessages →
      Tolerated (.unexpectedToken p (.unexpected name msg))
  | paren {p t} : Tolerated (.unexpectedToken p (.expected [.text t!")"] t))
  | comma {p t} : Tolerated (.unexpectedToken p (.expected [.punct .comma] t))
  | strict {p t} : t ∈ [t!"with statements", t!"restriced ident"] →
      Tolerated (.nonStrictFeatureInStrictContext p t)
  | getter {p} : Tolerated (.invalidGetterParams p)
  | setter {p} : Tolerated (.invalidSetterParams p)
  | proto {p} : Tolerated (.redecl p t!"prototype can only be declared once")
  | afterEof : Tolerated .parseAfterEoF
  | noEof : Tolerated .unexpectedEoF
  | comment {p} : Tolerated (.operationError p t!"Unable to get string")

/-- The errors that module mode adds: an item with the text `await` where a name is declared. -/
inductive ModuleOnly (s : St) : Error → Prop
  | name {p} {i : Item} : i.token = .ident →
      sliceB s.stream i.span.start i.span.stop = some t!"await" →
      getItemPosition s.lines i.span.start = some p →
      ModuleOnly s (.unexpectedToken p (.expected [.text t!"variable identifier"] .ident))

/-- The errors that changing the settings with `f` and `g` may suppress. -/
def Excused (f g : Bool → Bool) (e : Error) (s : St) : Prop :=
  ((∃ b, f b ≠ b) ∧ Tolerated e) ∨ ((∃ b, g b ≠ b) ∧ ModuleOnly s e)

/-- `m'` does with changed settings what `m` does, or `m` fails with an excused error. -/
def Follows (f g : Bool → Bool) {α : Type} (Q : α → Prop) (m m' : P α) : Prop :=
  ∀ s, (m s = .panic ∨ m' (shift f g s) = (m s).mapSt (shift f g) ∨
      ∃ e s', m s = .err e s' ∧ Excused f g e s') ∧
    ∀ a s', m s = .ok a s' → Q a

/-- `Follows` as a judgement. -/
def followsJ (f g : Bool → Bool) : Judgement where
  good _ := True
  rel _ _ Q m m' := Follows f g Q m m'

namespace FollowsJ

variable {f g : Bool → Bool}

theorem mono {α} {Q Q' : α → Prop} {m m' : P α} (hq : ∀ a, Q a → Q' a)
    (h : Follows f g Q m m') : Follows f g Q' m m' :=
  fun s => ⟨(h s).1, fun a s' e => hq a ((h s).2 a s' e)⟩

theorem same {α} {m : P α} (h : ∀ s, m (shift f g s) = (m s).mapSt (shift f g)) :
    Follows f g Any m m := fun s => ⟨.inr (.inl (h s)), fun _ _ _ => trivial⟩

theorem get {α} {h : St → α} (hh : ∀ s, h (shift f g s) = h s) :
    Follows f g Any (P.get h) (P.get h) := same fun s => by simp [P.get, Res.mapSt, hh]

theorem modC {h} : Follows f g Any (P.modC h) (P.modC h) := same fun _ => rfl

theorem pure {α} {Q : α → Prop} {a : α} (h : Q a) :
    Follows f g Q (Pure.pure a) (Pure.pure a) :=
  fun s => ⟨.inr (.inl rfl), fun _ _ e => by cases e; exact h⟩

/-- A computation that only fails. -/
theorem error {α} {Q : α → Prop} {m : P α} (h : ∀ s, m (shift f g s) = (m s).mapSt (shift f g))
    (k : ∀ s a s', m s ≠ .ok a s') : Follows f g Q m m :=
  fun s => ⟨.inr (.inl (h s)), fun a s' e => absurd e (k s a s')⟩

theorem bind {α β} {Q : α → Prop} {Q' : β → Prop} {m m' : P α} {k k' : α → P β}
    (h : Follows f g Q m m') (hk : ∀ a, Q a → Follows f g Q' (k a) (k' a)) :
    Follows f g Q' (m >>= k) (m' >>= k') := by
  intro s
  rw [bind_def, bind_def]
  obtain ⟨h1, hq⟩ := h s
  cases hm : m s with
  | ok a s' =>
    have hq := hq a s' hm
    rw [hm] at h1
    rcases h1 with h1 | h1 | ⟨_, _, h1, _⟩
    · cases h1
    · rw [h1]; exact hk a hq s'
    · cases h1
  | err e s' =>
    rw [hm] at h1
    refine ⟨.inr ?_, fun a s' e => by cases e⟩
    rcases h1 with h1 | h1 | ⟨_, _, h1, h2⟩
    · cases h1
    · rw [h1]; exact .inl rfl
    · cases h1; exact .inr ⟨_, _, rfl, h2⟩
  | panic => exact ⟨.inl rfl, fun a s' e => by cases e⟩
  | diverge =>
    rw [hm] at h1
    refine ⟨.inr ?_, fun a s' e => by cases e⟩
    rcases h1 with h1 | h1 | ⟨_, _, h1, h2⟩
    · cases h1
    · rw [h1]; exact .inl rfl
    · cases h1

theorem ite {α} {Q : α → Prop} {p : Prop} [Decidable p] {a b a' b' : P α}
    (h : p → Follows f g Q a a') (k : ¬p → Follows f g Q b b') :
    Follows f g Q (if p then a else b) (if p then a' else b') := by
  split
  · exact h ‹_›
  · exact k ‹_›

theorem diverge {α : Type} {Q : α → Prop} : Follows f g Q (fun _ => .diverge) (fun _ => .diverge) :=
  error (fun _ => rfl) fun s a s' e => by cases e

theorem nextItem : Follows f g Any nextItem nextItem := same ModeJ.nextItem_shift

theorem loopN {σ α} {Q : α → Prop} {test test' : σ → P (Option α)} {body body'}
    (ht : ∀ x, Follows f g (fun o => ∀ a, o = some a → Q a) (test x) (test' x))
    (hb : ∀ x, Follows f g (fun r => ∀ a, r = .inr a → Q a) (body x) (body' x)) :
    ∀ n x, Follows f g Q (Ressa.loopN n test body x) (Ressa.loopN n test' body' x)
  | 0, x => by unfold Ressa.loopN; exact diverge
  | n + 1, x => by
    unfold Ressa.loopN
    refine bind (ht x) fun o ho => ?_
    cases o with
    | some a => exact pure (ho a rfl)
    | none =>
      refine bind (hb x) fun r hr => ?_
      cases r with
      | inl x' => exact loopN ht hb n x'
      | inr a => exact pure (hr a rfl)

theorem streamSlice {i} : Follows f g Any (streamSlice i) (streamSlice i) := same fun s => by
  simp only [Ressa.streamSlice, shift]
  split <;> rfl

theorem getString {i} : Follows f g Any (getString i) (getString i) := same fun s => by
  simp only [Ressa.getString, shift]
  split <;> rfl

theorem ofOption {α} {o : Option α} : Follows f g Any (P.ofOption o) (P.ofOption o) :=
  same fun s => by cases o <;> rfl

theorem expectedTokenError_ne {α} {i e} (s : St) (a : α) (s') :
    expectedTokenError i e s ≠ .ok a s' := by
  unfold Ressa.expectedTokenError; split <;> simp

theorem unexpectedTokenError_ne {α} {i e} (s : St) (a : α) (s') :
    unexpectedTokenError i e s ≠ .ok a s' := by
  unfold Ressa.unexpectedTokenError; split <;> simp

theorem expectedTokenError_shift {α} {i e} (s : St) :
    (expectedTokenError i e : P α) (shift f g s) =
      ((expectedTokenError i e : P α) s).mapSt (shift f g) := by
  simp only [Ressa.expectedTokenError, shift]
  split <;> rfl

theorem unexpectedTokenError_shift {α} {i e} (s : St) :
    (unexpectedTokenError i e : P α) (shift f g s) =
      ((unexpectedTokenError i e : P α) s).mapSt (shift f g) := by
  simp only [Ressa.unexpectedTokenError, shift]
  split <;> rfl

theorem expectedTokenError {α} {Q : α → Prop} {i e} :
    Follows f g Q (expectedTokenError i e) (expectedTokenError i e) :=
  error expectedTokenError_shift expectedTokenError_ne

theorem unexpectedTokenError {α} {Q : α → Prop} {i e} :
    Follows f g Q (unexpectedTokenError i e) (unexpectedTokenError i e) :=
  error unexpectedTokenError_shift unexpectedTokenError_ne

theorem expectedLook {α} {Q : α → Prop} {e} :
    Follows f g Q (expectedLook e) (expectedLook e) :=
  error (fun s => expectedTokenError_shift s) fun s => expectedTokenError_ne s

theorem unexpectedLook {α} {Q : α → Prop} {e} :
    Follows f g Q (unexpectedLook e) (unexpectedLook e) :=
  error (fun s => unexpectedTokenError_shift s) fun s => unexpectedTokenError_ne s

theorem varIdentText {i} : Follows f g Any (varIdentText i) (varIdentText i) := by
  unfold Ressa.varIdentText
  split
  · exact get fun _ => rfl
  · exact pure trivial
  · exact expectedTokenError

theorem streamSlice_bind {β} {i : Item} {k : Txt → P β} {s : St} : (Ressa.streamSlice i >>= k) s =
    match sliceB s.stream i.span.start i.span.stop with
    | some t => k t s
    | none => .panic := by
  rw [bind_def, Ressa.streamSlice]
  cases sliceB s.stream i.span.start i.span.stop <;> rfl

theorem isIdent_iff {t : Token} : t.isIdent = true ↔ t = .ident := by
  cases t <;> simp [Token.isIdent]

/-- The test for `await` as a name. -/
theorem awaitName (H : ModeJ.Ok f g) {i} (hi : i.token = .ident) : Follows f g Any
    (do if ← P.and (P.or readModule (readC (·.await)))
          (do return (← Ressa.streamSlice i) == t!"await") then
          Ressa.expectedTokenError i (words [t!"variable identifier"])
        else Ressa.varIdentText i)
    (do if ← P.and (P.or readModule (readC (·.await)))
          (do return (← Ressa.streamSlice i) == t!"await") then
          Ressa.expectedTokenError i (words [t!"variable identifier"])
        else Ressa.varIdentText i) := by
  intro s
  refine ⟨?_, fun _ _ _ => trivial⟩
  have run : ∀ t : St, (do
      if ← P.and (P.or readModule (readC (·.await)))
          (do return (← Ressa.streamSlice i) == t!"await") then
        Ressa.expectedTokenError i (words [t!"variable identifier"])
      else Ressa.varIdentText i) t =
      if (t.isModule || t.ctx.await) = true then
        match sliceB t.stream i.span.start i.span.stop with
        | some x => if x = t!"await" then
            Ressa.expectedTokenError i (words [t!"variable identifier"]) t
          else Ressa.varIdentText i t
        | none => .panic
      else Ressa.varIdentText i t := by
    intro t
    simp only [readC, readModule, get_or]
    by_cases h : (t.isModule || t.ctx.await) = true
    · rw [if_pos h]
      have : P.and (P.get fun s => s.isModule || s.ctx.await)
          (do return (← Ressa.streamSlice i) == t!"await") t =
          (do return (← Ressa.streamSlice i) == t!"await" : P Bool) t := by
        rw [P.and, get_bind, if_pos h]
      rw [bind_def, this, streamSlice_bind]
      cases sliceB t.stream i.span.start i.span.stop with
      | none => rfl
      | some x =>
        by_cases hx : x = t!"await"
        · subst hx; rfl
        · have hx' : (x == t!"await") = false := by simpa using hx
          simp only [if_neg hx, hx']
          rfl
    · rw [if_neg h]
      have : P.and (P.get fun s => s.isModule || s.ctx.await)
          (do return (← Ressa.streamSlice i) == t!"await") t = .ok false t := by
        rw [P.and, get_bind, if_neg h]
        rfl
      rw [bind_def, this]
      rfl
  rw [run, run]
  have text : ∀ s, Ressa.varIdentText i (shift f g s) =
      (Ressa.varIdentText i s).mapSt (shift f g) := by
    intro s
    unfold Ressa.varIdentText
    rw [hi]
    rfl
  by_cases hm : (s.isModule || s.ctx.await) = true
  · rw [if_pos hm]
    cases hs : sliceB s.stream i.span.start i.span.stop with
    | none => exact .inl rfl
    | some x =>
      have hs' : sliceB (shift f g s).stream i.span.start i.span.stop = some x := hs
      simp only [hs']
      by_cases hx : x = t!"await"
      · simp only [if_pos hx]
        by_cases hg : ((shift f g s).isModule || (shift f g s).ctx.await) = true
        · rw [if_pos hg]
          exact .inr (.inl (expectedTokenError_shift s))
        · unfold Ressa.expectedTokenError
          cases hp : getItemPosition s.lines i.span.start with
          | none => exact .inl rfl
          | some p =>
            refine .inr <| .inr ⟨_, _, rfl, .inr ⟨⟨s.isModule, ?_⟩, ?_⟩⟩
            · intro e
              apply hg
              simp only [shift, e]
              exact hm
            · rw [hi]
              exact .name hi (hx ▸ hs) hp
      · simp only [if_neg hx]
        refine .inr (.inl ?_)
        split <;> exact text s
  · rw [if_neg hm, if_neg]
    · exact .inr (.inl (text s))
    · intro h
      apply hm
      simp only [Bool.or_eq_true, shift] at h ⊢
      exact h.imp H.module_le id

theorem varIdent (H : ModeJ.Ok f g) {v} : Follows f g Any (varIdent v) (varIdent v) := by
  unfold Ressa.varIdent
  refine bind nextItem fun i _ => ite (fun _ => ?_) fun _ =>
    ite (fun _ => ?_) fun hi => awaitName H (isIdent_iff.1 (by simpa using hi))
  · exact bind (get fun _ => rfl)
      fun _ _ => ite (fun _ => expectedTokenError) fun _ => varIdentText
  · simp only [readC, isStrictReservedTok, get_and]
    exact bind (get fun _ => rfl)
      fun _ _ => ite (fun _ => expectedTokenError) fun _ =>
        bind (get fun _ => rfl)
          fun _ _ => ite (fun _ => expectedTokenError) fun _ => varIdentText

theorem ifNotTolerant (H : ModeJ.Ok f g) {m m' : P Empty}
    (ht : ∀ s, m s = .panic ∨ ∃ e s', m s = .err e s' ∧ Tolerated e) (h : Follows f g Any m m') :
    Follows f g Any (ifNotTolerant m) (ifNotTolerant m') := by
  intro s
  refine ⟨?_, fun _ _ _ => trivial⟩
  unfold Ressa.ifNotTolerant
  cases hs : s.tolerant with
  | true =>
    rw [if_pos rfl, if_pos (by simp [shift, hs, H.tolerant])]
    exact .inr (.inl rfl)
  | false =>
    rw [if_neg (by simp)]
    have h1 := (h s).1
    rcases ht s with hm | ⟨e, s', hm, ht⟩
    · rw [hm]; exact .inl rfl
    · rw [hm]
      refine .inr ?_
      by_cases hf : f false = true
      · exact .inr ⟨_, _, rfl, .inl ⟨⟨false, by simp [hf]⟩, ht⟩⟩
      · rw [if_neg (by simp [shift, hs, hf])]
        rw [hm] at h1
        rcases h1 with h1 | h1 | ⟨_, _, h1, h2⟩
        · cases h1
        · rw [h1]; exact .inl rfl
        · cases h1; exact .inr ⟨_, _, rfl, h2⟩

theorem tolerated_unexpected {i msg} (h : msg ∈ toleratedMessages) (s : St) :
    (Ressa.unexpectedTokenError i msg : P Empty) s = .panic ∨
      ∃ e s', (Ressa.unexpectedTokenError i msg : P Empty) s = .err e s' ∧ Tolerated e := by
  unfold Ressa.unexpectedTokenError
  split
  · exact .inl rfl
  · exact .inr ⟨_, _, rfl, .message h⟩

theorem tolOk {m : P Empty} (h : TolOk m) (s : St) :
    m s = .panic ∨ ∃ e s', m s = .err e s' ∧ Tolerated e := by
  cases h with
  | word i => exact tolerated_unexpected (by decide) s
  | ident i => exact tolerated_unexpected (by decide) s
  | strictIdent i => exact tolerated_unexpected (by decide) s
  | increment i => exact tolerated_unexpected (by decide) s
  | delete i => exact tolerated_unexpected (by decide) s
  | «class» i => exact tolerated_unexpected (by decide) s
  | target => exact tolerated_unexpected (i := s.look) (by decide) s
  | function => exact tolerated_unexpected (i := s.look) (by decide) s
  | paren =>
    unfold Ressa.expectedLook Ressa.expectedTokenError
    split
    · exact .inl rfl
    · exact .inr ⟨_, _, rfl, .paren⟩
  | body p => exact .inr ⟨_, _, rfl, .strict (by simp)⟩
  | getter p => exact .inr ⟨_, _, rfl, .getter⟩
  | setter p => exact .inr ⟨_, _, rfl, .setter⟩
  | proto p => exact .inr ⟨_, _, rfl, .proto⟩

theorem nextItemGo_err : ∀ {ts : List Tok} {span : Span} {s : St} {e s'},
    nextItemGo span ts s = .err e s' → Tolerated e
  | [], span, s, e, s', h => by
    simp only [nextItemGo] at h
    split at h
    · split at h
      · cases h; exact .afterEof
      · cases h
    · cases h; exact .noEof
  | t :: ts, span, s, e, s', h => by
    simp only [nextItemGo] at h
    split at h
    · cases h
    · split at h
      · split at h
        · cases h; exact .comment
        · exact nextItemGo_err h
      · cases h

theorem nextItem_err {s e s'} (h : Ressa.nextItem s = .err e s') : Tolerated e := nextItemGo_err h

theorem nextItemGo_ne : ∀ {ts : List Tok} {span : Span} {s : St},
    nextItemGo span ts s ≠ .diverge
  | [], span, s, h => by
    simp only [nextItemGo] at h
    split at h
    · split at h <;> cases h
    · cases h
  | t :: ts, span, s, h => by
    simp only [nextItemGo] at h
    split at h
    · cases h
    · split at h
      · split at h
        · cases h
        · exact nextItemGo_ne h
      · cases h

theorem nextItem_ne {s} : Ressa.nextItem s ≠ .diverge := nextItemGo_ne

theorem expectCommaSep (H : ModeJ.Ok f g) : Follows f g Any expectCommaSep expectCommaSep := by
  intro s
  refine ⟨?_, fun _ _ _ => trivial⟩
  have tol : Follows f g Any (do if ← atPunct .comma then skipItem else Pure.pure () : P Unit)
      (do if ← atPunct .comma then skipItem else Pure.pure () : P Unit) :=
    bind (Q := Any) (get fun _ => rfl) fun _ _ =>
      ite (fun _ => bind nextItem fun _ _ => pure trivial) fun _ => pure trivial
  have nonTol : Follows f g Any (expectPunct .comma) (expectPunct .comma) := by
    unfold Ressa.expectPunct
    exact bind nextItem fun _ _ => ite (fun _ => expectedTokenError) fun _ => pure trivial
  unfold Ressa.expectCommaSep
  cases ht : s.tolerant with
  | true =>
    rw [if_pos rfl, if_pos (by simp [shift, ht, H.tolerant])]
    exact (tol s).1
  | false =>
    rw [if_neg (by simp)]
    by_cases hf : f false = true
    · rw [if_pos (by simp [shift, ht, hf])]
      rw [Ressa.expectPunct, bind_def]
      by_cases hl : s.look.token = .punct .comma
      · rw [atPunct_bind, if_pos (by simp [shift, hl]), skipItem, bind_def, ModeJ.nextItem_shift]
        cases hn : Ressa.nextItem s with
        | ok i s' =>
          simp only [nextItem_look hn, hl]
          exact .inr (.inl rfl)
        | err e s' => exact .inr (.inl rfl)
        | panic => exact .inl rfl
        | diverge => exact .inr (.inl rfl)
      · have hf : ∃ b, f b ≠ b := ⟨false, by simp [hf]⟩
        cases hn : Ressa.nextItem s with
        | ok i s' =>
          simp only [nextItem_look hn]
          rw [if_pos (by simpa using fun h => hl (matchesPunct_iff.1 h)), Ressa.expectedTokenError]
          split
          · exact .inl rfl
          · exact .inr (.inr ⟨_, _, rfl, .inl ⟨hf, .comma⟩⟩)
        | err e s' => exact .inr (.inr ⟨_, _, rfl, .inl ⟨hf, nextItem_err hn⟩⟩)
        | panic => exact .inl rfl
        | diverge => exact absurd hn nextItem_ne
    · rw [if_neg (by simp [shift, ht, hf])]
      exact (nonTol s).1

instance base [H : ModeJ.Ok f g] : Base (followsJ f g) where
  weakenD h := h
  weakenQ hq h := mono hq h
  pure h := pure h
  bindT h k := bind h k
  bindF h k := bind h k
  nextItem := mono (fun _ _ => trivial) nextItem
  look := mono (fun _ _ => trivial) (get fun _ => rfl)
  readC _ := get fun _ => rfl
  lookTok := get fun _ => rfl
  lookIs _ := get fun _ => rfl
  lookPos := get fun _ => rfl
  isRestrictedTok _ := get fun _ => rfl
  isStrictReservedTok _ := get fun _ => rfl
  isLiteralTok _ := get fun _ => rfl
  atImportCall := get fun _ => rfl
  atLexicalDecl := get fun _ => rfl
  atAsyncFunction := by
    unfold atAsyncFunction atContextual
    refine bind (Q := Any) ?_ fun _ _ => ?_
    · exact bind (Q := Any)
        (get fun _ => rfl) fun _ _ => bind streamSlice fun _ _ => pure trivial
    · refine ite (fun _ => ?_) fun _ => pure trivial
      refine bind (Q := Any)
        (get fun _ => rfl) fun o _ => ?_
      cases o with
      | none => exact pure trivial
      | some t =>
        refine bind (Q := Any)
          (get fun _ => rfl) fun _ _ => bind (Q := Any) (same fun s => ?_) fun _ _ => pure trivial
        simp only [positionOf, shift]
        split <;> rfl
  streamSlice _ := streamSlice
  getString _ := getString
  stringForOrEmpty _ := get fun _ => rfl
  expectedTokenError e _ := expectedTokenError
  unexpectedTokenError e _ := unexpectedTokenError
  expectedLook e := expectedLook
  unexpectedLook e := unexpectedLook
  reinterpretError := error (fun _ => rfl) fun s a s' => by simp [Ressa.reinterpretError]
  fail _ := error (fun _ => rfl) fun s a s' => by simp [P.fail]
  modC _ := modC
  inScope _ h := bind (Q := Any)
    (get fun _ => rfl) fun _ _ =>
      bind (Q := Any)
        modC fun _ _ =>
        bind h fun a ha =>
          bind (Q := Any)
            modC fun _ _ => pure ha
  withLabel _ h := bind (Q := Any)
    (get fun _ => rfl) fun _ _ => ite (fun _ => error (fun _ => rfl) fun s a s' => by
        simp [redeclError])
      fun _ => bind (Q := Any)
        modC fun _ _ =>
        bind h fun a ha =>
          bind (Q := Any)
            modC fun _ _ => pure ha
  ifNotTolerant t h := ifNotTolerant H (tolOk t) h
  ignoreNext := same fun s => by
    simp only [P.ignoreErr]
    rw [ModeJ.nextItem_shift]
    cases Ressa.nextItem s <;> rfl
  expectCommaSep := expectCommaSep H
  templateElement := by
    unfold Ressa.templateElement
    refine bind (Q := Any) nextItem
      fun i _ => ?_
    split
    · exact bind getString fun _ _ =>
        bind ofOption fun _ _ => pure trivial
    · exact bind getString fun _ _ =>
        bind ofOption fun _ _ => pure trivial
    · exact bind getString fun _ _ =>
        bind ofOption fun _ _ => pure trivial
    · exact bind getString fun _ _ =>
        bind ofOption fun _ _ => pure trivial
    · exact expectedLook
  regexLiteral := by
    unfold regexLiteral' notTarget
    refine bind modC fun _ _ =>
      bind (Q := Any) nextItem fun i _ => ?_
    split
    · refine bind (Q := Any)
        (get fun _ => rfl) fun raw _ => ?_
      split
      · exact bind (Q := Any) (get fun _ => rfl) fun _ _ => error (fun _ => rfl)
          fun s a s' => by simp [P.fail]
      · exact bind ofOption fun _ _ =>
          pure trivial
    · exact expectedLook
  varIdent _ := varIdent H
  withGuard := by
    unfold Ressa.withGuard P.when
    exact bind (Q := Any) (get fun _ => rfl) fun _ _ => bind (Q := Any) (get fun _ => rfl)
      fun _ _ => ite (fun _ => ifNotTolerant H (fun _ => .inr ⟨_, _, rfl, .strict (by simp)⟩)
        (error (fun _ => rfl) fun s a s' => by simp [P.fail])) fun _ => pure trivial
  loopP {σ α c Q test test' body body' x} ht hb s :=
    loopN ht hb (mu s + 1) x s

theorem recN_follows (H : ModeJ.Ok f g) : ∀ (c : Bool) (n), StepRel (followsJ f g) c (recN n) (recN n)
  | _, 0 => by constructor <;> intros <;> exact diverge
  | _, n + 1 => by
    haveI := (recN_follows H true n).closed
    exact step_j

theorem ofFuel {α : Type} {Q : α → Prop} {F : Nat → P α} (h : ∀ n, Follows f g Q (F n) (F n)) :
    Follows f g Q (fun s => F (mu s + 1) s) (fun s => F (mu s + 1) s) :=
  fun s => h (mu s + 1) s

theorem full_follows (H : ModeJ.Ok f g) (c : Bool) : StepRel (followsJ f g) c full full where
  assign := ofFuel fun n => (recN_follows H c n).assign
  expression := ofFuel fun n => (recN_follows H c n).expression
  unary := ofFuel fun n => (recN_follows H c n).unary
  expo := ofFuel fun n => (recN_follows H c n).expo
  lhs := ofFuel fun n => (recN_follows H c n).lhs
  stmt := ofFuel fun n => (recN_follows H c n).stmt
  listItem := ofFuel fun n => (recN_follows H c n).listItem
  pattern k := ofFuel fun n => (recN_follows H c n).pattern k

theorem nextPart (H : ModeJ.Ok f g) : Follows f g Any nextPart nextPart := by
  haveI := (full_follows H true).closed
  unfold Ressa.nextPart
  simp only [readC, lookIs, get_and]
  refine bind (Q := Any) (get fun _ => rfl) fun _ _ => ite (fun _ => ?_) fun _ => ?_
  · exact bind (directive_j (J := followsJ f g) (R := full) (R' := full)) fun _ _ =>
      bind modC fun _ _ => pure trivial
  · exact bind modC fun _ _ => (full_follows H true).listItem

theorem next (H : ModeJ.Ok f g) : Follows f g Any next next := by
  unfold Ressa.next
  exact bind (Q := Any) (get fun _ => rfl) fun _ _ => ite (fun _ => pure trivial) fun _ =>
    bind (nextPart H) fun _ _ => pure trivial

/-- An error outside the list survives the change of the settings. -/
theorem err {α} {Q : α → Prop} {m m' : P α} (h : Follows f g Q m m') {s e s'}
    (hm : m s = .err e s') (he : ¬Excused f g e s') :
    m' (shift f g s) = .err e (shift f g s') := by
  rcases (h s).1 with h1 | h1 | ⟨_, _, h1, h2⟩
  · rw [hm] at h1; cases h1
  · rw [h1, hm]; rfl
  · rw [hm] at h1; cases h1; exact absurd h2 he

theorem parse_err (H : ModeJ.Ok f g) {s e s'} (h : parse s = .err e s')
    (he : ¬Excused f g e s') : parse (shift f g s) = .err e (shift f g s') := by
  obtain ⟨ps, s1, hc, hn⟩ := (parse_err_iff ..).1 h
  exact (parse_err_iff ..).2 ⟨ps, _, ModeJ.collects H hc, err (next H) hn he⟩

theorem build_err {L : Lexer} {tolerant isModule text e s}
    (h : Builder.build ⟨tolerant, isModule, text⟩ L = .err e s) :
    Builder.build ⟨f tolerant, g isModule, text⟩ L = .err e (shift f g s) := by
  have : skipItem (shift f g (initState L tolerant isModule text (getLines text))) =
      (skipItem (initState L tolerant isModule text (getLines text))).mapSt (shift f g) := by
    rw [skipItem, bind_def, bind_def, ModeJ.nextItem_shift]
    cases Ressa.nextItem (initState L tolerant isModule text (getLines text)) <;> rfl
  exact this.trans (by rw [show skipItem _ = _ from h]; rfl)

end FollowsJ

/-! ## C44 -/

theorem not_excused_tolerant {e s} (h : ¬Tolerated e) : ¬Excused (fun _ => true) id e s := by
  rintro (h' | ⟨⟨_, h'⟩, _⟩)
  · exact h h'.2
  · exact h' rfl

/-- An error of `next` that is not on the list is returned with tolerance as well, and the same
state is left behind. -/
theorem tolerant_next_error {s e s'} (h : next s = .err e s') (he : ¬Tolerated e) :
    next { s with tolerant := true } = .err e { s' with tolerant := true } :=
  FollowsJ.err (f := fun _ => true) (g := id) (FollowsJ.next ⟨rfl, rfl⟩) h (not_excused_tolerant he)

/-- The same for `parse_expression`. -/
theorem tolerant_expression_error {s e s'} (h : full.expression s = .err e s')
    (he : ¬Tolerated e) :
    full.expression { s with tolerant := true } = .err e { s' with tolerant := true } :=
  FollowsJ.err (f := fun _ => true) (g := id) (FollowsJ.full_follows ⟨rfl, rfl⟩ true).expression h
    (not_excused_tolerant he)

/-- A text that is rejected without tolerance for a reason not on the list is rejected with
tolerance for the same reason at the same place, with the same comments delivered. -/
theorem tolerant_error {L : Lexer} {b : Builder} {s e s'}
    (hb : (b.setTolerant false).build L = .ok () s) (h : parse s = .err e s')
    (he : ¬Tolerated e) :
    ∃ t t', (b.setTolerant true).build L = .ok () t ∧ parse t = .err e t' ∧
      t'.comments = s'.comments :=
  ⟨_, shift (fun _ => true) id s', ModeJ.build (f := fun _ => true) (g := id) hb,
    FollowsJ.parse_err ⟨rfl, rfl⟩ h (not_excused_tolerant he), rfl⟩

/-- If only the tolerant parser accepts a text then the other one reports an error on the list. -/
theorem only_tolerated {L : Lexer} {b : Builder} {s t p t' e s'}
    (ht : (b.setTolerant true).build L = .ok () t) (hp : parse t = .ok p t')
    (hb : (b.setTolerant false).build L = .ok () s) (h : parse s = .err e s') : Tolerated e := by
  by_cases he : Tolerated e
  · exact he
  · obtain ⟨u, u', h1, h2, _⟩ := tolerant_error hb h he
    rw [h1] at ht
    cases ht
    rw [h2] at hp
    cases hp

/-- A text for which no parser is built without tolerance has none with tolerance. -/
theorem tolerant_build_error {L : Lexer} {b : Builder} {e s}
    (h : (b.setTolerant false).build L = .err e s) :
    ∃ t, (b.setTolerant true).build L = .err e t :=
  ⟨_, FollowsJ.build_err (f := fun _ => true) (g := id) h⟩

/-- `f(a b);`, `if (a b`, `1 = 2`, and `f(a.` without the closing parenthesis. -/
def Demo.noComma : List Demo.Piece := [Demo.id t!"f", Demo.p .openParen t!"(", Demo.id t!"a",
  Demo.id t!"b", Demo.p .closeParen t!")"]
def Demo.noParen : List Demo.Piece := [Demo.k .if, Demo.p .openParen t!"(", Demo.id t!"a",
  Demo.id t!"b"]
def Demo.noTarget : List Demo.Piece := [Demo.n t!"1", Demo.p .assign t!"=", Demo.n t!"2"]
def Demo.noMember : List Demo.Piece := [Demo.id t!"f", Demo.p .openParen t!"(", Demo.id t!"a",
  Demo.p .period t!"."]
/-- `var 1`. -/
def Demo.noName : List Demo.Piece := [Demo.k .var, Demo.n t!"1"]

/-- C44 on `var 1`: both parsers report the same error, which is not on the list. -/
example :
    (Demo.parse Demo.noName).error? =
      some (.unexpectedToken ⟨1, 5⟩ (.expected (words [t!"variable identifier"]) .numeric)) ∧
    (Demo.parse Demo.noName (tolerant := true)).error? = (Demo.parse Demo.noName).error? := by
  constructor <;> kernel_rfl

example {p t} : ¬Tolerated (.unexpectedToken p (.expected (words [t!"variable identifier"]) t)) := by
  rintro ⟨⟩

/-- The list is needed: a missing comma, an assignment to a number and a missing parenthesis. -/
example :
    (Demo.parse Demo.noComma).error? =
      some (.unexpectedToken ⟨1, 7⟩ (.expected [.punct .comma] .ident)) ∧
    (Demo.parse Demo.noComma (tolerant := true)).isOk = true := by
  constructor <;> kernel_rfl

example :
    (Demo.parse Demo.noTarget).error? =
      some (.unexpectedToken ⟨1, 3⟩ (.unexpected t!"=" t!"Not at assignment target")) ∧
    (Demo.parse Demo.noTarget (tolerant := true)).isOk = true := by
  constructor <;> kernel_rfl

example :
    (Demo.parse Demo.noParen).error? =
      some (.unexpectedToken ⟨1, 8⟩ (.expected [.text t!")"] .ident)) ∧
    (Demo.parse Demo.noParen (tolerant := true)).isOk = true := by
  constructor <;> kernel_rfl

/-- `afterEof` is needed: the end of the text is taken for the name after the dot, and the search
for a comma then reads beyond it. -/
example :
    (Demo.parse Demo.noMember).error? = some .parseAfterEoF ∧
    (Demo.parse Demo.noMember (tolerant := true)).error? =
      some (.unexpectedToken ⟨1, 8⟩ (.expected (words [t!"[identifier]", t!"async",
        t!"[Number]", t!"[String]", t!"[RegEx]", t!"yield", t!"let", t!"function", t!"this",
        t!"class", t!"import"]) .eof)) := by
  constructor <;> kernel_rfl

/-! ## C45 -/

theorem not_excused_script {e s} (h : ¬ModuleOnly s e) : ¬Excused id (fun _ => false) e s := by
  rintro (⟨⟨_, h'⟩, _⟩ | h')
  · exact h' rfl
  · exact h h'.2

/-- An error of `next` in module mode is returned in script mode as well, unless it is about the
name `await`. -/
theorem script_next_error {s e s'} (h : next s = .err e s') (he : ¬ModuleOnly s' e) :
    next { s with isModule := false } = .err e { s' with isModule := false } :=
  FollowsJ.err (f := id) (g := fun _ => false) (FollowsJ.next ⟨rfl, rfl⟩) h (not_excused_script he)

/-- The same for `parse_expression`. -/
theorem script_expression_error {s e s'} (h : full.expression s = .err e s')
    (he : ¬ModuleOnly s' e) :
    full.expression { s with isModule := false } = .err e { s' with isModule := false } :=
  FollowsJ.err (f := id) (g := fun _ => false) (FollowsJ.full_follows ⟨rfl, rfl⟩ true).expression h
    (not_excused_script he)

/-- A text that is rejected as a module is rejected as a script for the same reason at the same
place, or the error points to an identifier `await` in the text where a name is expected. -/
theorem script_error {L : Lexer} {b : Builder} {s e s'}
    (hb : (b.setModule true).build L = .ok () s) (h : parse s = .err e s') :
    (∃ t t', (b.setModule false).build L = .ok () t ∧ parse t = .err e t' ∧
      t'.comments = s'.comments) ∨
    ∃ p, ∃ span : Span, e = .unexpectedToken p (.expected [.text t!"variable identifier"] .ident) ∧
      sliceB b.js span.start span.stop = some t!"await" ∧
      getItemPosition (getLines b.js) span.start = some p := by
  by_cases he : ModuleOnly s' e
  · right
    have hr : Reachable L (b.setModule true) s' := ⟨s, hb, .tail .refl (.parseErr h)⟩
    obtain ⟨-, -, -, hs, hl, -⟩ := reachable_settings hr
    cases he with
    | @name p i h1 h2 h3 =>
      rw [hs] at h2
      rw [hl] at h3
      exact ⟨p, i.span, rfl, h2, h3⟩
  · exact .inl ⟨_, shift id (fun _ => false) s', ModeJ.build (f := id) (g := fun _ => false) hb,
      FollowsJ.parse_err ⟨rfl, rfl⟩ h (not_excused_script he), rfl⟩

/-- If only script mode accepts a text then module mode reports an identifier `await`. -/
theorem only_await {L : Lexer} {b : Builder} {s t p t' e s'}
    (ht : (b.setModule false).build L = .ok () t) (hp : parse t = .ok p t')
    (hb : (b.setModule true).build L = .ok () s) (h : parse s = .err e s') :
    ∃ p, ∃ span : Span, e = .unexpectedToken p (.expected [.text t!"variable identifier"] .ident) ∧
      sliceB b.js span.start span.stop = some t!"await" ∧
      getItemPosition (getLines b.js) span.start = some p := by
  rcases script_error hb h with ⟨u, u', h1, h2, _⟩ | h
  · rw [h1] at ht
    cases ht
    rw [h2] at hp
    cases hp
  · exact h

/-- C45 on `var await`, which only script mode accepts, and on `var 1`. -/
example :
    (Demo.parse [Demo.k .var, Demo.id t!"await"] (isModule := true)).error? =
      some (.unexpectedToken ⟨1, 5⟩ (.expected (words [t!"variable identifier"]) .ident)) ∧
    (Demo.parse [Demo.k .var, Demo.id t!"await"]).isOk = true ∧
    (Demo.parse Demo.noName (isModule := true)).error? = (Demo.parse Demo.noName).error? := by
  refine ⟨?_, ?_, ?_⟩ <;> kernel_rfl

end Ressa
