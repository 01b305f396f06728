import Verif.Props.Settings
import Verif.Proof.Eval

/-!
# Tolerance and module mode (C08, C09)

Switching tolerance on or module mode off keeps every successful run.
-/

namespace Ressa

/-- Change the two settings. -/
def shift (f g : Bool → Bool) (s : St) : St :=
  { s with tolerant := f s.tolerant, isModule := g s.isModule }

/-- Change the state of an outcome. -/
def Res.mapSt {α : Type} (f : St → St) : Res α → Res α
  | .ok a s => .ok a (f s)
  | .err e s => .err e (f s)
  | .panic => .panic
  | .diverge => .diverge

/-- Every successful run of `m` is one of `m'` with the settings changed. -/
def Mode (f g : Bool → Bool) {α : Type} (Q : α → Prop) (m m' : P α) : Prop :=
  ∀ s a s', m s = .ok a s' → Q a ∧ m' (shift f g s) = .ok a (shift f g s')

/-- `Mode` as a judgement. -/
def modeJ (f g : Bool → Bool) : Judgement where
  good _ := True
  rel _ _ Q m m' := Mode f g Q m m'

namespace ModeJ

variable {f g : Bool → Bool}

theorem mono {α} {Q Q' : α → Prop} {m m' : P α} (hq : ∀ a, Q a → Q' a)
    (h : Mode f g Q m m') : Mode f g Q' m m' :=
  fun s a s' e => ⟨hq a (h s a s' e).1, (h s a s' e).2⟩

theorem get {α} {h : St → α} (hh : ∀ s, h (shift f g s) = h s) :
    Mode f g Any (P.get h) (P.get h) := by
  rintro s a s' ⟨⟩
  exact ⟨trivial, by simp [hh]⟩

theorem error {α} {Q : α → Prop} {m m' : P α} (h : ∀ s a s', m s ≠ .ok a s') :
    Mode f g Q m m' :=
  fun s a s' e => absurd e (h s a s')

theorem bind {α β} {Q : α → Prop} {Q' : β → Prop} {m m' : P α} {k k' : α → P β}
    (h : Mode f g Q m m') (hk : ∀ a, Q a → Mode f g Q' (k a) (k' a)) :
    Mode f g Q' (m >>= k) (m' >>= k') := by
  intro s b s'' e
  obtain ⟨a, s', h1, h2⟩ := bind_eq_ok.1 e
  obtain ⟨hq, h3⟩ := h s a s' h1
  obtain ⟨hq', h4⟩ := hk a hq s' b s'' h2
  exact ⟨hq', by rw [bind_ok h3, h4]⟩

theorem modC {h} : Mode f g Any (P.modC h) (P.modC h) := by
  rintro s a s' ⟨⟩
  exact ⟨trivial, rfl⟩

theorem pure {α} {Q : α → Prop} {a : α} (h : Q a) :
    Mode f g Q (Pure.pure a) (Pure.pure a) := by
  rintro s a s' ⟨⟩
  exact ⟨h, rfl⟩

theorem nextItemGo_shift : ∀ (ts : List Tok) (span : Span) (s : St),
    nextItemGo span ts (shift f g s) = (nextItemGo span ts s).mapSt (shift f g)
  | [], span, s => by
    by_cases h : s.look.token.isEof = true
    · by_cases h' : s.foundEof = true <;> simp [nextItemGo, shift, h, h', Res.mapSt]
    · simp [nextItemGo, shift, h, Res.mapSt]
  | t :: ts, span, s => by
    simp only [nextItemGo, shift]
    cases hu : updatePositions s.stream s.lookPos span t.item.span.start with
    | none => rfl
    | some p =>
      cases ht : t.item.token with
      | comment kind =>
        cases hs : sliceB s.stream t.item.span.start t.item.span.stop with
        | none => rfl
        | some c =>
          simp only
          exact nextItemGo_shift ts t.item.span { s with
            rest := ts, curPos := p.1, lookPos := p.2, comments := s.comments ++ [(kind, c, t.item.span)]
            ctx := { s.ctx with hasLineTerm := t.nl } }
      | _ => rfl

theorem nextItem_shift (s : St) : nextItem (shift f g s) = (nextItem s).mapSt (shift f g) :=
  nextItemGo_shift _ _ _

theorem nextItem : Mode f g Any nextItem nextItem := by
  intro s a s' e
  refine ⟨trivial, ?_⟩
  rw [nextItem_shift, e]
  rfl

theorem loopN {σ α} {Q : α → Prop} {test test' : σ → P (Option α)} {body body'}
    (ht : ∀ x, Mode f g (fun o => ∀ a, o = some a → Q a) (test x) (test' x))
    (hb : ∀ x, Mode f g (fun r => ∀ a, r = .inr a → Q a) (body x) (body' x)) :
    ∀ n x, Mode f g Q (Ressa.loopN n test body x) (Ressa.loopN n test' body' x)
  | 0, x => error fun s a s' h => by simp [Ressa.loopN] at h
  | n + 1, x => by
    unfold Ressa.loopN
    refine bind (ht x) fun o ho => ?_
    cases o with
    | some a => exact pure (ho a rfl)
    | none =>
      refine bind (hb x) fun r hr => ?_
      cases r with
      | inl x' => exact loopN ht hb n x'
      | inr a => exact pure (hr a rfl)

theorem ite {α} {Q : α → Prop} {p : Prop} [Decidable p] {a b a' b' : P α}
    (h : p → Mode f g Q a a') (k : ¬p → Mode f g Q b b') :
    Mode f g Q (if p then a else b) (if p then a' else b') := by
  split
  · exact h ‹_›
  · exact k ‹_›

theorem streamSlice {i} : Mode f g Any (streamSlice i) (streamSlice i) := by
  intro s a s' e
  refine ⟨trivial, ?_⟩
  simp only [Ressa.streamSlice, shift] at e ⊢
  split at e <;> cases e
  rfl

theorem getString {i} : Mode f g Any (getString i) (getString i) := by
  intro s a s' e
  refine ⟨trivial, ?_⟩
  simp only [Ressa.getString, shift] at e ⊢
  split at e <;> cases e
  rfl

theorem ofOption {α} {o : Option α} :
    Mode f g Any (P.ofOption o) (P.ofOption o) := by
  intro s a s' e
  cases o with
  | none => cases e
  | some v => cases e; exact ⟨trivial, rfl⟩

theorem expectedTokenError {α} {Q : α → Prop} {i e} {m' : P α} :
    Mode f g Q (expectedTokenError i e) m' :=
  error fun s a s' => by unfold Ressa.expectedTokenError; split <;> simp

theorem expectedLook {α} {Q : α → Prop} {e} {m' : P α} :
    Mode f g Q (expectedLook e) m' :=
  error fun s a s' => by unfold Ressa.expectedLook Ressa.expectedTokenError; split <;> simp

/-- `f` keeps tolerance on, `g` does not switch module mode on. -/
class Ok (f g : Bool → Bool) : Prop where
  tolerant : f true = true
  module : g false = false

theorem Ok.module_le (H : Ok f g) {b} (h : g b = true) : b = true := by
  cases b with
  | true => rfl
  | false => rw [H.module] at h; cases h

theorem varIdentText {i} : Mode f g Any (varIdentText i) (varIdentText i) := by
  unfold Ressa.varIdentText
  split
  · exact get fun _ => rfl
  · exact pure trivial
  · exact expectedTokenError

theorem varIdent (H : Ok f g) {v} : Mode f g Any (varIdent v) (varIdent v) := by
  unfold Ressa.varIdent
  refine bind nextItem fun i _ => ite (fun _ => ?_) fun _ =>
    ite (fun _ => ?_) fun _ => ?_
  · exact bind (get fun _ => rfl)
      fun _ _ => ite (fun _ => expectedTokenError) fun _ => varIdentText
  · simp only [readC, isStrictReservedTok, get_and]
    exact bind (get fun _ => rfl)
      fun _ _ => ite (fun _ => expectedTokenError) fun _ =>
        bind (get fun _ => rfl)
          fun _ _ => ite (fun _ => expectedTokenError) fun _ => varIdentText
  · intro s a s' e
    refine ⟨trivial, ?_⟩
    simp only [readC, readModule, get_or] at e ⊢
    obtain ⟨b, s1, h1, h2⟩ := bind_eq_ok.1 e
    have hb : b = false := by
      cases b with
      | false => rfl
      | true =>
        rw [if_pos rfl] at h2
        exact absurd h2 (by unfold Ressa.expectedTokenError; split <;> simp)
    subst hb
    simp only [Bool.false_eq_true, if_false] at h2
    have key : P.and (P.get fun s => s.isModule || s.ctx.await)
        (do return (← Ressa.streamSlice i) == t!"await") (shift f g s) =
        .ok false (shift f g s1) := by
      simp only [P.and, get_bind] at h1 ⊢
      by_cases hm : ((shift f g s).isModule || (shift f g s).ctx.await) = true
      · have : (s.isModule || s.ctx.await) = true := by
          simp only [Bool.or_eq_true, shift] at hm ⊢
          exact hm.imp H.module_le id
        rw [if_pos this] at h1
        rw [if_pos hm]
        exact (bind (Q' := Any) (streamSlice (i := i)) (fun a _ => pure trivial) s _ _ h1).2
      · rw [if_neg hm]
        have : s1 = s := by
          split at h1
          · obtain ⟨x, s2, h3, h4⟩ := bind_eq_ok.1 h1
            injection h4 with _ h4
            subst h4
            unfold Ressa.streamSlice at h3
            split at h3 <;> cases h3
            rfl
          · cases h1; rfl
        rw [this]
        rfl
    rw [bind_ok key]
    exact (varIdentText (f := f) (g := g) s1 a s' h2).2

theorem ifNotTolerant_ok {m : P Empty} {s a s'} (e : Ressa.ifNotTolerant m s = .ok a s') :
    s.tolerant = true ∧ s' = s := by
  unfold Ressa.ifNotTolerant at e
  split at e
  · next ht => cases e; exact ⟨ht, rfl⟩
  · cases hm : m s with
    | ok a _ => exact nomatch a
    | _ => rw [hm] at e; cases e

theorem ifNotTolerant (H : Ok f g) {m m' : P Empty} :
    Mode f g Any (ifNotTolerant m) (ifNotTolerant m') := by
  intro s a s' e
  obtain ⟨ht, rfl⟩ := ifNotTolerant_ok e
  refine ⟨trivial, ?_⟩
  unfold Ressa.ifNotTolerant
  rw [if_pos (by simp [shift, ht, H.tolerant])]

instance base [H : Ok f g] : Base (modeJ f g) where
  weakenD h := h
  weakenQ hq h := mono hq h
  pure h := pure h
  bindT h k := bind h k
  bindF h k := bind h k
  nextItem := mono (fun _ _ => trivial) (nextItem )
  look := mono (fun _ _ => trivial) (get fun _ => rfl)
  readC _ := get fun _ => rfl
  lookTok := get fun _ => rfl
  lookIs _ := get fun _ => rfl
  lookPos := get fun _ => rfl
  isRestrictedTok _ := get fun _ => rfl
  isStrictReservedTok _ := get fun _ => rfl
  isLiteralTok _ := get fun _ => rfl
  atImportCall := get fun _ => rfl
  atLexicalDecl := get fun _ => rfl
  atAsyncFunction := by
    unfold atAsyncFunction atContextual
    refine bind (Q := Any) ?_ fun _ _ => ?_
    · exact bind (Q := Any)
        (get fun _ => rfl) fun _ _ => bind streamSlice fun _ _ => pure trivial
    · refine ite (fun _ => ?_) fun _ => pure trivial
      refine bind (Q := Any)
        (get fun _ => rfl) fun o _ => ?_
      cases o with
      | none => exact pure trivial
      | some t =>
        refine bind (Q := Any)
          (get fun _ => rfl) fun _ _ => bind (Q := Any) ?_ fun _ _ => pure trivial
        intro s a s' e
        refine ⟨trivial, ?_⟩
        simp only [positionOf, shift] at e ⊢
        split at e <;> cases e
        rfl
  streamSlice _ := streamSlice
  getString _ := getString
  stringForOrEmpty _ := get fun _ => rfl
  expectedTokenError e _ := expectedTokenError
  unexpectedTokenError e _ := error fun s a s' => by
    unfold Ressa.unexpectedTokenError; split <;> simp
  expectedLook e := expectedLook
  unexpectedLook e := error fun s a s' => by
    unfold Ressa.unexpectedLook Ressa.unexpectedTokenError; split <;> simp
  reinterpretError := error fun s a s' => by simp [Ressa.reinterpretError]
  fail _ := error fun s a s' => by simp [P.fail]
  modC _ := modC
  inScope _ h := bind (Q := Any)
    (get fun _ => rfl) fun _ _ =>
      bind (Q := Any)
        modC fun _ _ =>
        bind h fun a ha =>
          bind (Q := Any)
            modC fun _ _ => pure ha
  withLabel _ h := bind (Q := Any)
    (get fun _ => rfl) fun _ _ => ite (fun _ => error fun s a s' => by simp [redeclError])
      fun _ => bind (Q := Any)
        modC fun _ _ =>
        bind h fun a ha =>
          bind (Q := Any)
            modC fun _ _ => pure ha
  ifNotTolerant _ _ := ifNotTolerant H
  ignoreNext := by
    intro _ s a s' e
    refine ⟨trivial, ?_⟩
    simp only [P.ignoreErr] at e ⊢
    rw [nextItem_shift]
    cases hn : Ressa.nextItem s <;> rw [hn] at e <;> cases e <;> rfl
  expectCommaSep := by
    intro _ s a s' e
    refine ⟨trivial, ?_⟩
    have strict : Ressa.expectPunct .comma s = .ok a s' →
        s.look.token = .punct .comma ∧ skipItem (shift f g s) = .ok a (shift f g s') := by
      intro e
      obtain ⟨i, s1, h1, h2⟩ := bind_eq_ok.1 e
      split at h2
      · exact absurd h2 (by unfold Ressa.expectedTokenError; split <;> simp)
      · next ht =>
        cases h2
        rw [nextItem_look h1] at ht
        refine ⟨matchesPunct_iff.1 (by simpa using ht), ?_⟩
        rw [skipItem, bind_def, nextItem_shift, h1]
        rfl
    have tolerantRun : (do if ← atPunct .comma then skipItem else Pure.pure () : P Unit) s =
        .ok a s' → (do if ← atPunct .comma then skipItem else Pure.pure () : P Unit) (shift f g s) =
        .ok a (shift f g s') := by
      intro e
      exact (bind (Q := Any) (Q' := Any) (get fun _ => rfl) (fun _ _ => ite
          (fun _ => bind nextItem
            fun _ _ => pure trivial) fun _ => pure trivial) s a s' e).2
    unfold Ressa.expectCommaSep at e ⊢
    split at e
    · next ht =>
      rw [if_pos (by simp [shift, ht, H.tolerant])]
      exact tolerantRun e
    · obtain ⟨hl, hs⟩ := strict e
      split
      · simp only [atPunct_bind]
        rw [if_pos (by simp [shift, hl])]
        exact hs
      · rw [Ressa.expectPunct]
        obtain ⟨i, s1, h1, h2⟩ := bind_eq_ok.1 hs
        rw [bind_ok h1, nextItem_look h1]
        have hl' : (shift f g s).look.token = .punct .comma := hl
        rw [hl', if_neg (by simp)]
        exact h2
  templateElement := by
    unfold Ressa.templateElement
    refine bind (Q := Any) nextItem
      fun i _ => ?_
    split
    · exact bind getString fun _ _ =>
        bind ofOption fun _ _ => pure trivial
    · exact bind getString fun _ _ =>
        bind ofOption fun _ _ => pure trivial
    · exact bind getString fun _ _ =>
        bind ofOption fun _ _ => pure trivial
    · exact bind getString fun _ _ =>
        bind ofOption fun _ _ => pure trivial
    · exact expectedLook
  regexLiteral := by
    unfold regexLiteral' notTarget
    refine bind modC fun _ _ =>
      bind (Q := Any) nextItem fun i _ => ?_
    split
    · refine bind (Q := Any)
        (get fun _ => rfl) fun raw _ => ?_
      split
      · exact error fun s a s' => by simp [bind_def, Ressa.curPos, P.get, P.fail]
      · exact bind ofOption fun _ _ =>
          pure trivial
    · exact expectedLook
  varIdent _ := varIdent H
  withGuard := by
    unfold Ressa.withGuard P.when
    exact bind (Q := Any) (get fun _ => rfl) fun _ _ => bind (Q := Any) (get fun _ => rfl)
      fun _ _ => ite (fun _ => ifNotTolerant H) fun _ => pure trivial
  loopP {σ α c Q test test' body body' x} ht hb s a s' e :=
    loopN ht hb (mu s + 1) x s a s' e

theorem diverge {α : Type} {Q : α → Prop} {m' : P α} : Mode f g Q (fun _ => .diverge) m' :=
  error fun s a s' => by simp

theorem recN_mode (H : Ok f g) : ∀ (c : Bool) (n), StepRel (modeJ f g) c (recN n) (recN n)
  | _, 0 => by constructor <;> intros <;> exact diverge
  | _, n + 1 => by
    haveI := (recN_mode H true n).closed
    exact step_j

theorem ofFuel {α : Type} {Q : α → Prop} {F : Nat → P α} (h : ∀ n, Mode f g Q (F n) (F n)) :
    Mode f g Q (fun s => F (mu s + 1) s) (fun s => F (mu s + 1) s) :=
  fun s a s' e => h _ s a s' e

theorem full_mode (H : Ok f g) (c : Bool) : StepRel (modeJ f g) c full full where
  assign := ofFuel fun n => (recN_mode H c n).assign
  expression := ofFuel fun n => (recN_mode H c n).expression
  unary := ofFuel fun n => (recN_mode H c n).unary
  expo := ofFuel fun n => (recN_mode H c n).expo
  lhs := ofFuel fun n => (recN_mode H c n).lhs
  stmt := ofFuel fun n => (recN_mode H c n).stmt
  listItem := ofFuel fun n => (recN_mode H c n).listItem
  pattern k := ofFuel fun n => (recN_mode H c n).pattern k

theorem nextPart (H : Ok f g) : Mode f g Any nextPart nextPart := by
  haveI := (full_mode H true).closed
  unfold Ressa.nextPart
  simp only [readC, lookIs, get_and]
  refine bind (Q := Any) (get fun _ => rfl) fun _ _ => ite (fun _ => ?_) fun _ => ?_
  · exact bind (directive_j (J := modeJ f g) (R := full) (R' := full)) fun _ _ =>
      bind modC fun _ _ => pure trivial
  · exact bind modC fun _ _ => (full_mode H true).listItem

theorem next (H : Ok f g) : Mode f g Any next next := by
  unfold Ressa.next
  exact bind (Q := Any) (get fun _ => rfl) fun _ _ => ite (fun _ => pure trivial) fun _ =>
    bind (nextPart H) fun _ _ => pure trivial

theorem collects (H : Ok f g) {s ps s'} (h : Collects s ps s') :
    Collects (shift f g s) ps (shift f g s') := by
  induction h with
  | nil => exact .nil
  | cons h _ ih => exact .cons (next H _ _ _ h).2 ih

theorem build {L : Lexer} {tolerant isModule text s}
    (h : Builder.build ⟨tolerant, isModule, text⟩ L = .ok () s) :
    Builder.build ⟨f tolerant, g isModule, text⟩ L = .ok () (shift f g s) :=
  (bind (nextItem (f := f) (g := g)) (Q' := Any) (fun _ _ => pure trivial) _ _ _ h).2

end ModeJ

/-! ## C08 -/

/-- Whatever `next` returns without tolerance it returns with tolerance, and leaves the same state
behind. -/
theorem tolerant_next {s o s'} (h : next s = .ok o s') :
    next { s with tolerant := true } = .ok o { s' with tolerant := true } :=
  (ModeJ.next (f := fun _ => true) (g := id) ⟨rfl, rfl⟩ s o s' h).2

/-- A text that parses without tolerance parses with tolerance to the same program, with the same
comments delivered. -/
theorem tolerant_accepts {L : Lexer} {b : Builder} {s p s'}
    (hb : (b.setTolerant false).build L = .ok () s) (h : parse s = .ok p s') :
    ∃ t t', (b.setTolerant true).build L = .ok () t ∧ parse t = .ok p t' ∧
      t'.comments = s'.comments := by
  have H : ModeJ.Ok (fun _ => true) id := ⟨rfl, rfl⟩
  refine ⟨_, shift (fun _ => true) id s', ModeJ.build (f := fun _ => true) (g := id) hb, ?_, rfl⟩
  obtain ⟨ps, hc, hn, rfl⟩ := (parse_ok_iff ..).1 h
  exact (parse_ok_iff ..).2 ⟨ps, ModeJ.collects H hc, (ModeJ.next H _ _ _ hn).2, rfl⟩

/-- C08 on `f(a b)`: rejected without tolerance, accepted with it. -/
example :
    let f := [Demo.id t!"f", Demo.p .openParen t!"(", Demo.id t!"a", Demo.id t!"b",
      Demo.p .closeParen t!")"]
    (Demo.parse f).isOk = false ∧
    Demo.parse f (tolerant := true) =
      .ok (.script [.stmt (.expr (.call (.ident t!"f") [.ident t!"a", .ident t!"b"]))]) := by
  constructor <;> kernel_rfl

/-- C08 on `f(a, b)`: accepted without tolerance. -/
example : (Demo.parse [Demo.id t!"f", Demo.p .openParen t!"(", Demo.id t!"a", Demo.p .comma t!",",
    Demo.id t!"b", Demo.p .closeParen t!")"]).isOk = true := by
  kernel_rfl

/-! ## C09 -/

/-- Whatever `next` returns in module mode it returns in script mode, and leaves the same state
behind. -/
theorem script_next {s o s'} (h : next s = .ok o s') :
    next { s with isModule := false } = .ok o { s' with isModule := false } :=
  (ModeJ.next (f := id) (g := fun _ => false) ⟨rfl, rfl⟩ s o s' h).2

/-- A text that parses as a module parses as a script with the same parts. -/
theorem script_accepts {L : Lexer} {b : Builder} {s p s'}
    (hb : (b.setModule true).build L = .ok () s) (h : parse s = .ok p s') :
    ∃ ps t t', p = .mod ps ∧ (b.setModule false).build L = .ok () t ∧
      parse t = .ok (.script ps) t' ∧ t'.comments = s'.comments := by
  have H : ModeJ.Ok id (fun _ => false) := ⟨rfl, rfl⟩
  obtain ⟨ps, hc, hn, rfl⟩ := (parse_ok_iff ..).1 h
  have hr : Reachable L (b.setModule true) s' := ⟨s, hb, .tail .refl (.parseOk h)⟩
  refine ⟨ps, _, _, ?_, ModeJ.build (f := id) (g := fun _ => false) hb,
    (parse_ok_iff ..).2 ⟨ps, ModeJ.collects H hc, (ModeJ.next H _ _ _ hn).2, rfl⟩, rfl⟩
  rw [programOf, (reachable_settings hr).2.2.1]
  rfl

/-- C09 on `var await`: accepted as a script only. -/
example :
    let f := [Demo.k .var, Demo.id t!"await"]
    (Demo.parse f (isModule := true)).isOk = false ∧
    Demo.parse f = .ok (.script [.stmt (.var [⟨.identifier t!"await", none⟩])]) := by
  constructor <;> kernel_rfl

/-- C09 on `var a`: accepted as a module. -/
example : (Demo.parse [Demo.k .var, Demo.id t!"a"] (isModule := true)).isOk = true := by
  kernel_rfl

end Ressa
