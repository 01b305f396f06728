import Verif.Props.Settings
import Verif.Proof.Eval

/-!
# The parsing context between parts (C31, C32)
-/

namespace Ressa

/-- The fields of the context that decide what is accepted, apart from `allow_yield`, the cover
grammar flags and `allow_strict_directive`, which leak. -/
structure Frame where
  allowIn : Bool
  await : Bool
  inFunctionBody : Bool
  inIteration : Bool
  inSwitch : Bool
  labelSet : List Txt
  strict : Bool
  deriving DecidableEq

/-- The frame of a context. -/
def Ctx.frame (c : Ctx) : Frame :=
  ⟨c.allowIn, c.await, c.inFunctionBody, c.inIteration, c.inSwitch, c.labelSet, c.strict⟩

/-- The frame, and whether the prologue of the program is over. -/
def Ctx.wide (c : Ctx) : Frame × Bool := (c.frame, c.pastProlog)

/-- A successful run of `m` leaves the frame and the prologue flag as they were. -/
def Framed {α : Type} (Q : α → Prop) (m : P α) : Prop :=
  ∀ s a s', m s = .ok a s' → Q a ∧ s'.ctx.wide = s.ctx.wide

/-- `Framed` as a judgement. -/
def frameJ : Judgement where
  good _ := True
  rel _ _ Q m _ := Framed Q m

namespace FrameJ

theorem get {α} (h : St → α) : Framed Any (P.get h) := by
  rintro s a s' ⟨⟩
  exact ⟨trivial, rfl⟩

theorem error {α} {Q : α → Prop} {m : P α} (h : ∀ s a s', m s ≠ .ok a s') : Framed Q m :=
  fun s a s' e => absurd e (h s a s')

theorem bind {α β} {Q : α → Prop} {Q' : β → Prop} {m : P α} {k : α → P β}
    (h : Framed Q m) (hk : ∀ a, Q a → Framed Q' (k a)) : Framed Q' (m >>= k) := by
  intro s b s'' e
  obtain ⟨a, s', h1, h2⟩ := bind_eq_ok.1 e
  obtain ⟨hq, h3⟩ := h s a s' h1
  obtain ⟨hq', h4⟩ := hk a hq s' b s'' h2
  exact ⟨hq', h4.trans h3⟩

theorem modC {h : Ctx → Ctx} (hh : ∀ c, (h c).wide = c.wide) : Framed Any (P.modC h) := by
  rintro s a s' ⟨⟩
  exact ⟨trivial, hh _⟩

theorem pure {α} {Q : α → Prop} {a : α} (h : Q a) : Framed Q (Pure.pure a) := by
  rintro s a s' ⟨⟩
  exact ⟨h, rfl⟩

theorem next_frame {span ts s r} (h : Next span ts s r) :
    r.Sat (fun _ s' => s'.ctx.wide = s.ctx.wide) (fun _ s' => s'.ctx.wide = s.ctx.wide) True := by
  induction h with
  | eof => exact rfl
  | after => exact rfl
  | missing => exact rfl
  | bad => trivial
  | badComment => exact rfl
  | @comment _ _ _ _ _ _ _ _ r _ _ _ _ ih =>
    cases r with
    | ok a s' => exact ih
    | err a s' => exact ih
    | panic => trivial
    | diverge => exact ih
  | token => exact rfl

theorem nextItem : Framed Any nextItem := by
  intro s a s' e
  have := next_frame (nextItem_spec s)
  rw [e] at this
  exact ⟨trivial, this⟩

theorem loopN {σ α} {Q : α → Prop} {test : σ → P (Option α)} {body}
    (ht : ∀ x, Framed (fun o => ∀ a, o = some a → Q a) (test x))
    (hb : ∀ x, Framed (fun r => ∀ a, r = .inr a → Q a) (body x)) :
    ∀ n x, Framed Q (Ressa.loopN n test body x)
  | 0, x => error fun s a s' h => by simp [Ressa.loopN] at h
  | n + 1, x => by
    unfold Ressa.loopN
    refine bind (ht x) fun o ho => ?_
    cases o with
    | some a => exact pure (ho a rfl)
    | none =>
      refine bind (hb x) fun r hr => ?_
      cases r with
      | inl x' => exact loopN ht hb n x'
      | inr a => exact pure (hr a rfl)

theorem ite {α} {Q : α → Prop} {p : Prop} [Decidable p] {a b : P α}
    (h : p → Framed Q a) (k : ¬p → Framed Q b) : Framed Q (if p then a else b) := by
  split
  · exact h ‹_›
  · exact k ‹_›

theorem streamSlice {i} : Framed Any (streamSlice i) := by
  intro s a s' e
  unfold Ressa.streamSlice at e
  split at e <;> cases e
  exact ⟨trivial, rfl⟩

theorem getString {i} : Framed Any (getString i) := by
  intro s a s' e
  unfold Ressa.getString at e
  split at e <;> cases e
  exact ⟨trivial, rfl⟩

theorem ofOption {α} {o : Option α} : Framed Any (P.ofOption o) := by
  intro s a s' e
  cases o with
  | none => cases e
  | some v => cases e; exact ⟨trivial, rfl⟩

theorem expectedTokenError {α} {Q : α → Prop} {i e} : Framed Q (expectedTokenError (α := α) i e) :=
  error fun s a s' => by unfold Ressa.expectedTokenError; split <;> simp

theorem expectedLook {α} {Q : α → Prop} {e} : Framed Q (expectedLook (α := α) e) :=
  error fun s a s' => by unfold Ressa.expectedLook Ressa.expectedTokenError; split <;> simp

theorem inScope {α} {Q : α → Prop} {set : Ctx → Ctx} {restore : Ctx → Ctx → Ctx} {m : P α}
    (hr : ∀ c x : Ctx, x.wide = (set c).wide → (restore c x).wide = c.wide)
    (h : Framed Q m) : Framed Q (inScope set restore m) := by
  intro s a s' e
  obtain ⟨c, s1, h1, e⟩ := bind_eq_ok.1 e
  cases h1
  obtain ⟨_, s2, h2, e⟩ := bind_eq_ok.1 e
  cases h2
  obtain ⟨r, s3, h3, e⟩ := bind_eq_ok.1 e
  obtain ⟨_, s4, h4, e⟩ := bind_eq_ok.1 e
  cases h4
  cases e
  obtain ⟨hq, hf⟩ := h _ _ _ h3
  exact ⟨hq, hr _ _ hf⟩

theorem scopeOk {set restore} (h : ScopeOk set restore) (c x : Ctx)
    (hx : x.wide = (set c).wide) : (restore c x).wide = c.wide := by
  simp only [Ctx.wide, Ctx.frame, Frame.mk.injEq, Prod.mk.injEq] at hx ⊢
  cases h <;> simp_all [freshCover, isolateCover, inheritCover]

theorem withLabel {α} {Q : α → Prop} {m : P α} {l} (h : Framed Q m) :
    Framed Q (withLabel l m) := by
  intro s a s' e
  obtain ⟨c, s1, h1, e⟩ := bind_eq_ok.1 e
  cases h1
  split at e
  · exact absurd e (by simp [redeclError])
  · next hc =>
    obtain ⟨_, s2, h2, e⟩ := bind_eq_ok.1 e
    cases h2
    obtain ⟨r, s3, h3, e⟩ := bind_eq_ok.1 e
    obtain ⟨_, s4, h4, e⟩ := bind_eq_ok.1 e
    cases h4
    cases e
    obtain ⟨hq, hf⟩ := h _ _ _ h3
    refine ⟨hq, ?_⟩
    simp only [Ctx.wide, Ctx.frame, Frame.mk.injEq, Prod.mk.injEq] at hf ⊢
    simp only [hf, and_true, true_and]
    have : ¬ ('$' :: l) ∈ s.ctx.labelSet := by simpa using hc
    simp only [List.filter_cons, bne_self_eq_false, Bool.false_eq_true, if_false]
    refine List.filter_eq_self.2 fun x hx => ?_
    simp only [bne_iff_ne, ne_eq]
    rintro rfl
    exact this hx

instance base : Base frameJ where
  weakenD h := h
  weakenQ hq h := fun s a s' e => ⟨hq a (h s a s' e).1, (h s a s' e).2⟩
  pure h := pure h
  bindT h k := bind h k
  bindF h k := bind h k
  nextItem := nextItem
  look := get _
  readC _ := get _
  lookTok := get _
  lookIs _ := get _
  lookPos := get _
  isRestrictedTok _ := get _
  isStrictReservedTok _ := get _
  isLiteralTok _ := get _
  atImportCall := get _
  atLexicalDecl := get _
  atAsyncFunction := by
    unfold atAsyncFunction atContextual
    refine bind (Q := Any) (bind (Q := Any) (get _) fun _ _ => bind streamSlice fun _ _ =>
      pure trivial) fun _ _ => ite (fun _ => ?_) fun _ => pure trivial
    refine bind (Q := Any) (get _) fun o _ => ?_
    cases o with
    | none => exact pure trivial
    | some t =>
      refine bind (Q := Any) (get _) fun _ _ => bind (Q := Any) ?_ fun _ _ => pure trivial
      intro s a s' e
      unfold positionOf at e
      split at e <;> cases e
      exact ⟨trivial, rfl⟩
  streamSlice _ := streamSlice
  getString _ := getString
  stringForOrEmpty _ := get _
  expectedTokenError e _ := expectedTokenError
  unexpectedTokenError e _ := error fun s a s' => by
    unfold Ressa.unexpectedTokenError; split <;> simp
  expectedLook e := expectedLook
  unexpectedLook e := error fun s a s' => by
    unfold Ressa.unexpectedLook Ressa.unexpectedTokenError; split <;> simp
  reinterpretError := error fun s a s' => by simp [Ressa.reinterpretError]
  fail _ := error fun s a s' => by simp [P.fail]
  modC h := modC fun c => by cases h <;> rfl
  inScope hs h := inScope (scopeOk hs) h
  withLabel _ h := withLabel h
  ifNotTolerant {_ m _} _ h := by
    intro s a s' e
    unfold Ressa.ifNotTolerant at e
    split at e
    · cases e; exact ⟨trivial, rfl⟩
    · cases hm : m s with
      | ok a _ => exact nomatch a
      | _ => rw [hm] at e; cases e
  ignoreNext := by
    intro _ s a s' e
    refine ⟨trivial, ?_⟩
    unfold P.ignoreErr at e
    have h := next_frame (nextItem_spec s)
    cases hn : Ressa.nextItem s <;> rw [hn] at h e <;> cases e <;> exact h
  expectCommaSep := by
    intro _ s a s' e
    unfold Ressa.expectCommaSep at e
    split at e
    · exact (bind (Q := Any) (Q' := Any) (get _) (fun _ _ => ite (fun _ => bind nextItem fun _ _ =>
        pure trivial) fun _ => pure trivial)) s a s' e
    · exact (bind (Q := Any) (Q' := Any) nextItem (fun _ _ => ite
        (fun _ => expectedTokenError) fun _ => pure trivial)) s a s' e
  templateElement := by
    unfold Ressa.templateElement
    refine bind (Q := Any) nextItem fun i _ => ?_
    split
    · exact bind getString fun _ _ => bind ofOption fun _ _ => pure trivial
    · exact bind getString fun _ _ => bind ofOption fun _ _ => pure trivial
    · exact bind getString fun _ _ => bind ofOption fun _ _ => pure trivial
    · exact bind getString fun _ _ => bind ofOption fun _ _ => pure trivial
    · exact expectedLook
  regexLiteral := by
    unfold regexLiteral' notTarget
    refine bind (modC fun _ => rfl) fun _ _ => bind (Q := Any) nextItem fun i _ => ?_
    split
    · refine bind (Q := Any) (get _) fun raw _ => ?_
      split
      · exact error fun s a s' => by simp [bind_def, Ressa.curPos, P.get, P.fail]
      · exact bind ofOption fun _ _ => pure trivial
    · exact expectedLook
  varIdent _ := by
    have text : ∀ i, Framed Any (varIdentText i) := by
      intro i
      unfold varIdentText
      split
      · exact get _
      · exact pure trivial
      · exact expectedTokenError
    unfold Ressa.varIdent
    refine bind nextItem fun i _ => ite (fun _ => ?_) fun _ => ite (fun _ => ?_) fun _ => ?_
    · exact bind (Q := Any) (get _) fun _ _ => ite (fun _ => expectedTokenError) fun _ => text _
    · simp only [readC, isStrictReservedTok, get_and]
      exact bind (Q := Any) (get _) fun _ _ => ite (fun _ => expectedTokenError) fun _ =>
        bind (Q := Any) (get _) fun _ _ => ite (fun _ => expectedTokenError) fun _ => text _
    · simp only [readC, readModule, get_or]
      refine bind (Q := Any) ?_ fun _ _ => ite (fun _ => expectedTokenError) fun _ => text _
      exact bind (Q := Any) (get _) fun _ _ => ite
        (fun _ => bind streamSlice fun _ _ => pure trivial) fun _ => pure trivial
  withGuard := by
    intro _ s a s' e
    refine ⟨trivial, ?_⟩
    unfold Ressa.withGuard P.when Ressa.curPos at e
    simp only [get_bind, readC_bind] at e
    split at e
    · unfold tolerateError Ressa.ifNotTolerant at e
      split at e
      · cases e; rfl
      · cases e
    · cases e; rfl
  loopP ht hb s a s' e := loopN ht hb (mu s + 1) _ s a s' e

theorem diverge {α : Type} {Q : α → Prop} : Framed Q (fun _ => .diverge) :=
  error fun s a s' => by simp

theorem recN : ∀ (c : Bool) (n), StepRel frameJ c (recN n) (recN n)
  | _, 0 => by constructor <;> intros <;> exact diverge
  | _, n + 1 => by
    haveI := (recN true n).closed
    exact step_j

theorem ofFuel {α : Type} {Q : α → Prop} {F : Nat → P α} (h : ∀ n, Framed Q (F n)) :
    Framed Q (fun s => F (mu s + 1) s) :=
  fun s a s' e => h _ s a s' e

theorem full (c : Bool) : StepRel frameJ c full full where
  assign := ofFuel fun n => (recN c n).assign
  expression := ofFuel fun n => (recN c n).expression
  unary := ofFuel fun n => (recN c n).unary
  expo := ofFuel fun n => (recN c n).expo
  lhs := ofFuel fun n => (recN c n).lhs
  stmt := ofFuel fun n => (recN c n).stmt
  listItem := ofFuel fun n => (recN c n).listItem
  pattern k := ofFuel fun n => (recN c n).pattern k

/-- What `next_part` does to the frame and to the prologue flag. -/
theorem nextPart {s p s'} (h : nextPart s = .ok p s') : s'.ctx.frame = s.ctx.frame ∧
    s'.ctx.pastProlog = (s.ctx.pastProlog || !s.look.token.isString || !isDir p) := by
  haveI := (full true).closed
  unfold Ressa.nextPart at h
  simp only [readC, lookIs, get_and, get_bind] at h
  rw [ite_run] at h
  split at h
  · next hc =>
    obtain ⟨q, s1, h1, h⟩ := bind_eq_ok.1 h
    obtain ⟨_, s2, h2, h⟩ := bind_eq_ok.1 h
    cases h2
    cases h
    have := (directive_j (J := frameJ) (R := Ressa.full) (R' := Ressa.full) _ _ _ h1).2
    simp only [Ctx.wide, Prod.mk.injEq] at this
    refine ⟨this.1, ?_⟩
    simp only [Bool.and_eq_true, Bool.not_eq_true'] at hc
    simp [hc]
  · next hc =>
    obtain ⟨_, s2, h2, h⟩ := bind_eq_ok.1 h
    cases h2
    have := ((full true).listItem _ _ _ h).2
    simp only [Ctx.wide, Prod.mk.injEq] at this
    refine ⟨this.1, this.2.trans ?_⟩
    cases hp : s.ctx.pastProlog <;> cases hq : s.look.token.isString <;> simp_all

theorem next {s o s'} (h : next s = .ok o s') : s'.ctx.frame = s.ctx.frame ∧
    s'.ctx.pastProlog = match o with
      | none => s.ctx.pastProlog
      | some p => s.ctx.pastProlog || !s.look.token.isString || !isDir p := by
  unfold Ressa.next at h
  simp only [lookIs, get_bind] at h
  rw [ite_run] at h
  split at h
  · cases h; exact ⟨rfl, rfl⟩
  · obtain ⟨p, s1, h1, h⟩ := bind_eq_ok.1 h
    cases h
    exact nextPart h1

end FrameJ

/-! ## C31 -/

/-- C31: after every `Ok` result the context that was in force before is in force again. -/
theorem next_keeps_context {s o s'} (h : next s = .ok o s') : s'.ctx.frame = s.ctx.frame :=
  (FrameJ.next h).1

/-- C31 over any number of `Ok` results. -/
theorem collects_keeps_context {s ps s'} (h : Collects s ps s') : s'.ctx.frame = s.ctx.frame := by
  induction h with
  | nil => rfl
  | cons h _ ih => exact ih.trans (next_keeps_context h)

/-- C31 for `parse_expression`. -/
theorem expression_keeps_context {s x s'} (h : full.expression s = .ok x s') :
    s'.ctx.frame = s.ctx.frame :=
  congrArg Prod.fst ((FrameJ.full true).expression s x s' h).2

/-- C31 on `l: function f() { }`, which sets and resets labels and the function body. -/
example :
    let s := Demo.state [Demo.id t!"l", Demo.p .colon t!":", Demo.k .function, Demo.id t!"f",
      Demo.p .openParen t!"(", Demo.p .closeParen t!")", Demo.p .openBrace t!"{",
      Demo.p .closeBrace t!"}"]
    (next s).outcome.isOk = true ∧ (Demo.after next s).ctx.frame = s.ctx.frame := by
  constructor <;> kernel_rfl

/-- An error does leave the context changed: strict mode stays on after an error in a class. -/
example :
    let s := Demo.state [Demo.k .class, Demo.id t!"A", Demo.p .openBrace t!"{",
      Demo.p .plus t!"+"]
    s.ctx.strict = false ∧ (next s).outcome.isOk = false ∧ (Demo.after next s).ctx.strict = true := by
  refine ⟨?_, ?_, ?_⟩ <;> kernel_rfl

/-! ## C32 -/

theorem build_frame {L : Lexer} {b : Builder} {s : St} (h : b.build L = .ok () s) :
    s.ctx.frame = Ctx.default.frame :=
  congrArg Prod.fst
    (FrameJ.bind FrameJ.nextItem (Q' := Any) (fun _ _ => FrameJ.pure trivial) _ _ _ h).2

/-- C32: whatever directives it has read, a parser that has reported no error is not strict
between parts. -/
theorem never_strict {L : Lexer} {b : Builder} {s ps s'} (hb : b.build L = .ok () s)
    (h : Collects s ps s') : s'.ctx.strict = false := by
  have := (collects_keeps_context h).trans (build_frame hb)
  exact congrArg Frame.strict this

/-- C32: reading a directive at the head of a text or of a function body does not switch strict
mode on for what follows it. -/
theorem directive_not_strict {s p s'} (h : directive full s = .ok p s') :
    s'.ctx.strict = s.ctx.strict := by
  haveI := (FrameJ.full true).closed
  exact congrArg (·.1.strict)
    (directive_j (J := frameJ) (R := full) (R' := full) s p s' h).2

/-- C32: the whole prologue of a function body. -/
theorem prologue_not_strict {s p s'} (h : directivePrologues full s = .ok p s') :
    s'.ctx.strict = s.ctx.strict := by
  haveI := (FrameJ.full true).closed
  exact congrArg (·.1.strict)
    (directivePrologues_j (J := frameJ) (R := full) (R' := full) s p s' h).2

/-- C32 on `'use strict'; with (a) ;`, which strict code must not contain. -/
example : Demo.parse [Demo.str t!"'use strict'", Demo.p .semiColon t!";", Demo.k .with,
      Demo.p .openParen t!"(", Demo.id t!"a", Demo.p .closeParen t!")", Demo.p .semiColon t!";"] =
    .ok (.script [.dir t!"'use strict'" t!"use strict",
      .stmt (.with (.ident t!"a") .empty)]) := by
  kernel_rfl

/-- C32 on `function f() { 'use strict'; with (a) ; }`. -/
example : (Demo.parse [Demo.k .function, Demo.id t!"f", Demo.p .openParen t!"(",
      Demo.p .closeParen t!")", Demo.p .openBrace t!"{", Demo.str t!"'use strict'",
      Demo.p .semiColon t!";", Demo.k .with,
      Demo.p .openParen t!"(", Demo.id t!"a", Demo.p .closeParen t!")", Demo.p .semiColon t!";",
      Demo.p .closeBrace t!"}"]).isOk = true := by
  kernel_rfl

/-- The same statement is rejected in a class. -/
example : (Demo.parse [Demo.k .class, Demo.id t!"A", Demo.p .openBrace t!"{",
      Demo.id t!"f", Demo.p .openParen t!"(",
      Demo.p .closeParen t!")", Demo.p .openBrace t!"{", Demo.k .with,
      Demo.p .openParen t!"(", Demo.id t!"a", Demo.p .closeParen t!")", Demo.p .semiColon t!";",
      Demo.p .closeBrace t!"}", Demo.p .closeBrace t!"}"]).isOk = false := by
  kernel_rfl

end Ressa
