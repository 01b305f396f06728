import Verif.Proof.TwinTraverse
import Verif.Proof.Sim

/-!
# Simulations between two texts

Like `Verif.Proof.Sim`, for runs whose items and positions differ.
-/

namespace Ressa

/-- The contexts of the two runs. -/
def CtxAlike (loose : Prop) (c c' : Ctx) : Prop :=
  ∃ o a, c' = { c with firstCovert := o, allowStrictDirective := a } ∧
    (a = c.allowStrictDirective ∨ loose)

/-- A relation between the states of two runs over different texts. -/
structure Twin where
  item : Item → Item → Prop
  pos : Position → Position → Prop
  R : St → St → Prop
  err : Error → Error → Prop
  /-- `allow_strict_directive` may differ. -/
  loose : Prop

namespace Twin

/-- The outcomes of two runs, the second of which started in `s'`. -/
def post (S : Twin) {α : Type} (d : Bool) (Q : α → α → Prop) (s' : St) : Res α → Res α → Prop
  | .ok a t, r => ∃ a' t', r = .ok a' t' ∧ Q a a' ∧ S.R t t' ∧ mu t' + one d ≤ mu s'
  | .err e t, r => ∃ e' t', r = .err e' t' ∧ S.err e e' ∧ S.R t t' ∧ mu t' ≤ mu s'
  | .panic, _ => True
  | .diverge, _ => True

/-- The judgement of a simulation. -/
def judgement (S : Twin) : TJ where
  item := S.item
  pos := S.pos
  rel _ d Q m m' := ∀ s s', S.R s s' → S.post d Q s' (m s) (m' s')

/-- The obligations on the primitives. -/
structure Ok (S : Twin) : Prop where
  tok {i i'} : S.item i i' → i'.token = i.token
  line {p p' q q'} : S.pos p p' → S.pos q q' → (p'.line == q'.line) = (p.line == q.line)
  look {s s'} : S.R s s' → S.item s.look s'.look
  ctx {s s'} : S.R s s' → CtxAlike S.loose s.ctx s'.ctx
  ctxMod {s s'} {c c' : Ctx} : S.R s s' → CtxAlike S.loose c c' →
    S.R { s with ctx := c } { s' with ctx := c' }
  quoted {s s' w t'} : S.loose → S.R s s' → full.expression s' = .ok (.literal (.string w)) t' →
    w ≠ t!"use strict"
  ext {s s'} : S.R s s' → s'.ext = s.ext
  tolerant {s s'} : S.R s s' → s'.tolerant = s.tolerant
  isModule {s s'} : S.R s s' → s'.isModule = s.isModule
  lookPos {s s'} : S.R s s' → S.pos s.lookPos s'.lookPos
  cur {s s' k} : S.R s s' → AtCur k → S.err (k s.curPos) (k s'.curPos)
  fail {e e'} : TFailOk S.judgement e e' → S.err e e'
  slice {s s' i i'} : S.R s s' → S.item i i' →
    sliceB s'.stream i'.span.start i'.span.stop = sliceB s.stream i.span.start i.span.stop
  blame {s s' i i' p} : S.R s s' → S.item i i' → getItemPosition s.lines i.span.start = some p →
    ∃ p', getItemPosition s'.lines i'.span.start = some p' ∧
      ∀ m, S.err (.unexpectedToken p m) (.unexpectedToken p' m)
  peek {s s'} : S.R s s' → (peekSkipComments s'.rest).map (·.token) =
    (peekSkipComments s.rest).map (·.token)
  async {s s'} : S.R s s' → S.post false Eq s' (atAsyncFunction s) (atAsyncFunction s')
  next {s s'} : S.R s s' → S.post true S.item s' (nextItem s) (nextItem s')

section
variable {S : Twin}

/-- `TJ.rel` of a simulation. -/
abbrev rel (S : Twin) {α : Type} (d : Bool) (Q : α → α → Prop) (m m' : P α) : Prop :=
  S.judgement.rel true d Q m m'

theorem weakenD {α} {Q : α → α → Prop} {m m' : P α} {d : Bool} (h : S.rel true Q m m') :
    S.rel d Q m m' := by
  intro s s' hr
  have := h s s' hr
  revert this
  generalize m s = r
  intro h
  cases r with
  | ok a t =>
    obtain ⟨a', t', h1, h2, h3, h4⟩ := h
    exact ⟨a', t', h1, h2, h3, by cases d <;> simp at * <;> omega⟩
  | _ => exact h

theorem post_bind {α β} {d1 d2 d : Bool} {Q : α → α → Prop} {Q' : β → β → Prop} {m m' : P α}
    {f f' : α → P β} {s s'} (h : S.post d1 Q s' (m s) (m' s'))
    (k : ∀ a a' t t', Q a a' → S.R t t' → S.post d2 Q' t' (f a t) (f' a' t'))
    (hd : one d ≤ one d1 + one d2) : S.post d Q' s' ((m >>= f) s) ((m' >>= f') s') := by
  rw [bind_def, bind_def]
  cases hm : m s with
  | ok a t =>
    rw [hm] at h
    obtain ⟨a', t', e, hq, hr, hmu⟩ := h
    have := k a a' t t' hq hr
    rw [e]
    simp only
    cases hf : f a t with
    | ok b u =>
      rw [hf] at this
      obtain ⟨b', u', e', hq', hr', hmu'⟩ := this
      exact ⟨b', u', e', hq', hr', by omega⟩
    | err e u =>
      rw [hf] at this
      obtain ⟨e', u', h1, h2, h3, h4⟩ := this
      exact ⟨e', u', h1, h2, h3, by omega⟩
    | _ => trivial
  | err e t =>
    rw [hm] at h
    obtain ⟨e', t', h1, h2, h3, h4⟩ := h
    rw [h1]; exact ⟨e', t', rfl, h2, h3, h4⟩
  | _ => trivial

theorem bindD {α β} {d1 d2 d : Bool} {Q : α → α → Prop} {Q' : β → β → Prop} {m m' : P α}
    {f f' : α → P β} (h : S.rel d1 Q m m') (k : ∀ a a', Q a a' → S.rel d2 Q' (f a) (f' a'))
    (hd : one d ≤ one d1 + one d2) : S.rel d Q' (m >>= f) (m' >>= f') :=
  fun s s' hr => post_bind (h s s' hr) (fun a a' t t' hq hr => k a a' hq t t' hr) hd

theorem bind {α β} {d : Bool} {Q : α → α → Prop} {Q' : β → β → Prop} {m m' : P α}
    {f f' : α → P β} (h : S.rel false Q m m') (k : ∀ a a', Q a a' → S.rel d Q' (f a) (f' a')) :
    S.rel d Q' (m >>= f) (m' >>= f') := bindD h k (by simp)

theorem bindT {α β} {Q : α → α → Prop} {Q' : β → β → Prop} {m m' : P α}
    {f f' : α → P β} (h : S.rel true Q m m') (k : ∀ a a', Q a a' → S.rel false Q' (f a) (f' a')) :
    S.rel true Q' (m >>= f) (m' >>= f') := bindD h k (by simp)

theorem bindE {α β} {d : Bool} {Q' : β → β → Prop} {m m' : P α}
    {f f' : α → P β} (h : S.rel false Eq m m') (k : ∀ a, S.rel d Q' (f a) (f' a)) :
    S.rel d Q' (m >>= f) (m' >>= f') := bind h fun a _ e => e ▸ k a

theorem pure {α} {Q : α → α → Prop} {a a' : α} (h : Q a a') :
    S.rel false Q (Pure.pure a) (Pure.pure a') :=
  fun _ s' hr => ⟨a', s', rfl, h, hr, Nat.le_refl _⟩

theorem ite {α} {d : Bool} {Q : α → α → Prop} {p : Prop} [Decidable p] {a b a' b' : P α}
    (h : p → S.rel d Q a a') (k : ¬p → S.rel d Q b b') :
    S.rel d Q (if p then a else b) (if p then a' else b') := by
  by_cases hp : p
  · rw [if_pos hp, if_pos hp]; exact h hp
  · rw [if_neg hp, if_neg hp]; exact k hp

theorem get {α} {Q : α → α → Prop} {h h' : St → α} (hh : ∀ s s', S.R s s' → Q (h s) (h' s')) :
    S.rel false Q (P.get h) (P.get h') :=
  fun s s' hr => ⟨h' s', s', rfl, hh s s' hr, hr, Nat.le_refl _⟩

theorem ofOption {α} {o : Option α} : S.rel false Eq (P.ofOption o) (P.ofOption o) := by
  cases o with
  | none => exact fun _ _ _ => trivial
  | some a => exact pure (S := S) (a := a) rfl

/-- A failure in the current state. -/
theorem failAt {α} {d : Bool} {Q : α → α → Prop} {m m' : P α} {k k' : St → Error}
    (h : ∀ s, m s = .err (k s) s) (h' : ∀ s, m' s = .err (k' s) s)
    (he : ∀ s s', S.R s s' → S.err (k s) (k' s')) : S.rel d Q m m' :=
  fun s s' hr => by rw [h, h']; exact ⟨_, _, rfl, he s s' hr, hr, Nat.le_refl _⟩

theorem loopN {σ α} {test test' : σ → P (Option α)} {body body'}
    (ht : ∀ x, S.rel false Eq (test x) (test' x)) (hb : ∀ x, S.rel true Eq (body x) (body' x)) :
    ∀ n x n' s s', S.R s s' → mu s' < n' →
        S.post false Eq s' (Ressa.loopN n test body x s) (Ressa.loopN n' test' body' x s')
  | 0, x => fun _ _ _ _ _ => trivial
  | n + 1, x => by
    intro n' s s' hr hmu
    cases n' with
    | zero => omega
    | succ n' =>
      unfold Ressa.loopN
      have h1 := ht x s s' hr
      rw [bind_def, bind_def]
      cases hm : test x s with
      | err e t =>
        rw [hm] at h1
        obtain ⟨e', t', h1, h2, h3, h4⟩ := h1
        rw [h1]; exact ⟨e', t', rfl, h2, h3, h4⟩
      | panic => trivial
      | diverge => trivial
      | ok o t =>
        rw [hm] at h1
        obtain ⟨_, t', e, rfl, hr', hmu'⟩ := h1
        rw [e]
        simp only [one_false, Nat.add_zero] at hmu' ⊢
        cases o with
        | some a => exact ⟨a, t', rfl, rfl, hr', by simpa using hmu'⟩
        | none =>
          simp only
          have h2 := hb x t t' hr'
          rw [bind_def, bind_def]
          cases hbm : body x t with
          | err e t =>
            rw [hbm] at h2
            obtain ⟨e', t', h1, h2, h3, h4⟩ := h2
            rw [h1]; exact ⟨e', t', rfl, h2, h3, by omega⟩
          | panic => trivial
          | diverge => trivial
          | ok r u =>
            rw [hbm] at h2
            obtain ⟨_, u', e, rfl, hr'', hmu''⟩ := h2
            rw [e]
            simp only [one_true] at hmu''
            cases r with
            | inr a => exact ⟨a, u', rfl, rfl, hr'', by simp; omega⟩
            | inl x' =>
              have := loopN ht hb n x' n' u u' hr'' (by omega)
              simp only
              revert this
              generalize Ressa.loopN n test body x' u = r
              intro h
              cases r with
              | ok b v =>
                obtain ⟨b', v', h1, h2, h3, h4⟩ := h
                exact ⟨b', v', h1, h2, h3, by omega⟩
              | err e v =>
                obtain ⟨b', v', h1, h2, h3, h4⟩ := h
                exact ⟨b', v', h1, h2, h3, by omega⟩
              | _ => trivial

end

/-- Updates of alike contexts. -/
macro "mod_alike" : tactic => `(tactic| (
  intro c c' h
  obtain ⟨o, a, e, h⟩ := h
  subst e
  first
    | exact ⟨_, _, rfl, by assumption⟩
    | exact ⟨_, _, rfl, .inl rfl⟩))

variable {S : Twin} (H : S.Ok)
include H

theorem modC {f f'} (h : ∀ c c', CtxAlike S.loose c c' → CtxAlike S.loose (f c) (f' c')) :
    S.rel false Eq (P.modC f) (P.modC f') := fun _ s' hr =>
  ⟨(), { s' with ctx := f' s'.ctx }, rfl, rfl, H.ctxMod hr (h _ _ (H.ctx hr)), Nat.le_refl _⟩

theorem nextItem : S.rel true S.item nextItem nextItem := fun _ _ hr => H.next hr

theorem streamSlice {i i'} (hg : S.item i i') :
    S.rel false Eq (streamSlice i) (streamSlice i') := by
  intro s s' hr
  unfold Ressa.streamSlice
  rw [H.slice hr hg]
  cases sliceB s.stream i.span.start i.span.stop with
  | none => trivial
  | some c => exact ⟨c, s', rfl, rfl, hr, Nat.le_refl _⟩

theorem getString {i i'} (hg : S.item i i') : S.rel false Eq (getString i) (getString i') := by
  intro s s' hr
  unfold Ressa.getString
  rw [H.slice hr hg]
  cases sliceB s.stream i.span.start i.span.stop with
  | none => exact ⟨_, s', rfl, H.cur hr (.op _), hr, Nat.le_refl _⟩
  | some c => exact ⟨c, s', rfl, rfl, hr, Nat.le_refl _⟩

theorem stringForOrEmpty {i i'} (hg : S.item i i') :
    S.rel false Eq (stringForOrEmpty i) (stringForOrEmpty i') :=
  get fun s s' hr => by rw [H.slice hr hg]

theorem expectedTokenError {α} {d : Bool} {Q : α → α → Prop} {i i' e} (hg : S.item i i') :
    S.rel d Q (expectedTokenError i e) (expectedTokenError i' e) := by
  intro s s' hr
  unfold Ressa.expectedTokenError
  cases h : getItemPosition s.lines i.span.start with
  | none => trivial
  | some p =>
    obtain ⟨p', h1, h2⟩ := H.blame hr hg h
    rw [h1, H.tok hg]
    exact ⟨_, s', rfl, h2 _, hr, Nat.le_refl _⟩

theorem unexpectedTokenError {α} {d : Bool} {Q : α → α → Prop} {i i' e} (hg : S.item i i') :
    S.rel d Q (unexpectedTokenError i e) (unexpectedTokenError i' e) := by
  intro s s' hr
  unfold Ressa.unexpectedTokenError
  cases h : getItemPosition s.lines i.span.start with
  | none => trivial
  | some p =>
    obtain ⟨p', h1, h2⟩ := H.blame hr hg h
    rw [h1, H.slice hr hg]
    exact ⟨_, s', rfl, h2 _, hr, Nat.le_refl _⟩

theorem expectedLook {α} {d : Bool} {Q : α → α → Prop} {e} :
    S.rel d Q (expectedLook e) (expectedLook e) :=
  fun s s' hr => expectedTokenError H (H.look hr) s s' hr

theorem unexpectedLook {α} {d : Bool} {Q : α → α → Prop} {e} :
    S.rel d Q (unexpectedLook e) (unexpectedLook e) :=
  fun s s' hr => unexpectedTokenError H (H.look hr) s s' hr

theorem look : S.rel false S.item look look := get fun _ _ hr => H.look hr

theorem readC {α} {f : Ctx → α} (h : ∀ x o a, f { x with firstCovert := o, allowStrictDirective := a } = f x) :
    S.rel false Eq (readC f) (readC f) :=
  get fun s s' hr => by
    obtain ⟨o, a, ho, _⟩ := H.ctx hr
    rw [ho]
    exact (h _ _ _).symm

theorem readModule : S.rel false Eq readModule readModule :=
  get fun _ _ hr => (H.isModule hr).symm

theorem lookIs {f : Token → Bool} : S.rel false Eq (lookIs f) (lookIs f) :=
  get fun _ _ hr => by rw [H.tok (H.look hr)]

theorem isStrictReservedTok {t} :
    S.rel false Eq (isStrictReservedTok t) (isStrictReservedTok t) :=
  get fun _ _ hr => by rw [H.ext hr]

theorem ifNotTolerant {m m' : P Empty} (h : S.rel false Eq m m') :
    S.rel false Eq (ifNotTolerant m) (ifNotTolerant m') := by
  intro s s' hr
  unfold Ressa.ifNotTolerant
  rw [H.tolerant hr]
  split
  · exact ⟨(), s', rfl, rfl, hr, Nat.le_refl _⟩
  · have := h s s' hr
    cases hm : m s with
    | ok a => exact nomatch a
    | err e t =>
      rw [hm] at this
      obtain ⟨e', t', h1, h2, h3, h4⟩ := this
      rw [h1]
      exact ⟨e', t', rfl, h2, h3, h4⟩
    | _ => trivial

theorem bindItem {β} {Q' : β → β → Prop} {f f' : Item → P β}
    (k : ∀ t sp sp', S.item ⟨t, sp⟩ ⟨t, sp'⟩ → S.rel false Q' (f ⟨t, sp⟩) (f' ⟨t, sp'⟩)) :
    S.rel true Q' (Ressa.nextItem >>= f) (Ressa.nextItem >>= f') := by
  refine bindT (nextItem H) fun ⟨t, sp⟩ ⟨t', sp'⟩ hi => ?_
  obtain rfl : t' = t := H.tok hi
  exact k t' sp sp' hi

theorem varIdentText {t sp sp'} (hg : S.item ⟨t, sp⟩ ⟨t, sp'⟩) :
    S.rel false Eq (varIdentText ⟨t, sp⟩) (varIdentText ⟨t, sp'⟩) := by
  unfold Ressa.varIdentText
  dsimp only
  split
  · exact stringForOrEmpty H hg
  · exact pure rfl
  · exact expectedTokenError H hg

theorem varIdent {v} : S.rel true Eq (varIdent v) (varIdent v) := by
  unfold Ressa.varIdent
  refine bindItem H fun t sp sp' hg => ite (fun _ => ?_) fun _ => ite (fun _ => ?_) fun _ => ?_
  · exact bindE (readC H fun _ _ _ => rfl) fun _ => ite (fun _ => expectedTokenError H hg) fun _ =>
      varIdentText H hg
  · refine bindE ?_ fun _ => ite (fun _ => expectedTokenError H hg) fun _ =>
      bindE (readC H fun _ _ _ => rfl) fun _ => ite (fun _ => expectedTokenError H hg) fun _ =>
        varIdentText H hg
    exact bindE (readC H fun _ _ _ => rfl) fun _ => ite (fun _ => isStrictReservedTok H) fun _ =>
      pure rfl
  · refine bindE ?_ fun _ => ite (fun _ => expectedTokenError H hg) fun _ =>
      varIdentText H hg
    refine bindE ?_ fun _ => ite (fun _ => ?_) fun _ => pure rfl
    · exact bindE (readModule H) fun _ => ite (fun _ => pure rfl) fun _ => readC H fun _ _ _ => rfl
    · exact bindE (streamSlice H hg) fun _ => pure rfl

theorem skipItem : S.rel true Eq skipItem skipItem :=
  bindItem H fun _ _ _ _ => pure rfl

theorem readCtx : S.rel false (CtxAlike S.loose)
    (Ressa.readC id) (Ressa.readC id) := get fun _ _ hr => H.ctx hr

theorem scope {α} {d : Bool} {Q : α → α → Prop} {set restore m m'} (h : ScopeOk set restore)
    (hm : S.rel d Q m m') : S.rel d Q (inScope set restore m) (inScope set restore m') := by
  unfold inScope
  refine bind (readCtx H) fun c c' hc => bindE (modC H ?_) fun _ => bindD hm (fun a a' ha =>
    bindE (modC H ?_) fun _ => pure ha) (by simp)
  · cases h <;> mod_alike
  · obtain ⟨_, _, rfl, hc⟩ := hc
    cases h <;> mod_alike

/-- The primitives preserve the judgement. -/
theorem base : TBase S.judgement where
  tok := H.tok
  line := H.line
  weakenD h := weakenD h
  pure h := pure h
  bindT h k := bindT h k
  bindF h k := bind h k
  nextItem := nextItem H
  look := look H
  readC _ h := readC H h
  lookTok := get fun s s' hr => by rw [H.tok (H.look hr)]
  lookIs _ := lookIs H
  lookPos := get fun s s' hr => H.lookPos hr
  isRestrictedTok hg := get fun s s' hr => by rw [H.ext hr, H.slice hr hg, H.tok hg]
  isStrictReservedTok _ := isStrictReservedTok H
  isLiteralTok _ := get fun s s' hr => by rw [H.ext hr]
  atImportCall := get fun s s' hr => by
    have := H.peek hr
    rw [H.tok (H.look hr)]
    cases h : peekSkipComments s.rest <;> cases h' : peekSkipComments s'.rest <;>
      rw [h, h'] at this <;> simp at this
    simp only [this]
  atLexicalDecl := get fun s s' hr => by
    have := H.peek hr
    cases h : peekSkipComments s.rest <;> cases h' : peekSkipComments s'.rest <;>
      rw [h, h'] at this <;> simp at this
    simp only [this]
  atAsyncFunction := fun s s' hr => H.async hr
  streamSlice hg := streamSlice H hg
  getString hg := getString H hg
  stringForOrEmpty hg := stringForOrEmpty H hg
  expectedTokenError _ hg := expectedTokenError H hg
  unexpectedTokenError _ hg := unexpectedTokenError H hg
  expectedLook _ := expectedLook H
  unexpectedLook _ := unexpectedLook H
  reinterpretError _ _ := failAt (fun _ => rfl) (fun _ => rfl) fun s s' hr =>
    H.cur hr (.reinterpret _ _)
  fail h := failAt (fun _ => rfl) (fun _ => rfl) fun s s' hr => H.fail h
  modC h := modC H (by
    cases h with
    | covert => mod_alike
    | same h => cases h <;> mod_alike)
  inScope h hm := scope H h hm
  withLabel _ h := bindE (readC H fun _ _ _ => rfl) fun _ =>
    ite (fun _ => failAt (fun _ => rfl) (fun _ => rfl) fun s s' hr => H.cur hr (.redecl _)) fun _ =>
      bindE (modC H (by mod_alike)) fun _ => bindD h (fun a a' ha =>
        bindE (modC H (by mod_alike)) fun _ => pure ha) (by simp)
  ifNotTolerant h := ifNotTolerant H h
  ignoreNext := by
    intro _ s s' hr
    have := H.next hr
    unfold P.ignoreErr
    revert this
    generalize Ressa.nextItem s = r
    intro h
    cases r with
    | ok a t =>
      obtain ⟨a', t', h1, _, h2, h3⟩ := h
      rw [h1]; exact ⟨(), t', rfl, rfl, h2, by simp at *; omega⟩
    | err e t =>
      obtain ⟨e', t', h1, _, h2, h3⟩ := h
      rw [h1]; exact ⟨(), t', rfl, rfl, h2, by simp at *; omega⟩
    | _ => trivial
  expectCommaSep := by
    have h1 : S.rel false Eq (do if ← atPunct .comma then Ressa.skipItem else Pure.pure () : P Unit)
        (do if ← atPunct .comma then Ressa.skipItem else Pure.pure () : P Unit) :=
      bindE (lookIs H) fun _ => ite (fun _ => weakenD (skipItem H)) fun _ => pure rfl
    have h2 : S.rel false Eq (expectPunct .comma) (expectPunct .comma) := by
      unfold expectPunct
      exact weakenD (bindItem H fun _ _ _ hg => ite (fun _ => expectedTokenError H hg) fun _ =>
        pure rfl)
    intro _ s s' hr
    unfold Ressa.expectCommaSep
    rw [H.tolerant hr]
    split
    · exact h1 s s' hr
    · exact h2 s s' hr
  templateElement := by
    unfold Ressa.templateElement
    refine bindItem H fun t sp sp' hg => ?_
    dsimp only
    split
    · exact bindE (getString H hg) fun _ => bindE ofOption fun _ => pure rfl
    · exact bindE (getString H hg) fun _ => bindE ofOption fun _ => pure rfl
    · exact bindE (getString H hg) fun _ => bindE ofOption fun _ => pure rfl
    · exact bindE (getString H hg) fun _ => bindE ofOption fun _ => pure rfl
    · exact expectedLook H
  regexLiteral := by
    unfold regexLiteral' notTarget
    refine bindE (modC H (by mod_alike)) fun _ => bindItem H fun t sp sp' hg => ?_
    dsimp only
    split
    · refine bindE (stringForOrEmpty H hg) fun raw => ?_
      split
      · exact failAt (fun _ => rfl) (fun _ => rfl) fun s s' hr => H.cur hr (.raw _)
      · exact bindE ofOption fun _ => pure rfl
    · exact expectedLook H
  varIdent _ := varIdent H
  withGuard := by
    intro _ s s' hr
    show S.post false Eq s' (P.when (Ressa.readC (·.strict)) (tolerateError
        (.nonStrictFeatureInStrictContext s.curPos t!"with statements")) s)
        (P.when (Ressa.readC (·.strict)) (tolerateError
        (.nonStrictFeatureInStrictContext s'.curPos t!"with statements")) s')
    unfold P.when
    simp only [readC_bind]
    obtain ⟨o, a, ho, _⟩ := H.ctx hr
    rw [ho]
    dsimp only
    split
    · unfold tolerateError Ressa.ifNotTolerant
      rw [H.tolerant hr]
      split
      · exact ⟨(), s', rfl, rfl, hr, Nat.le_refl _⟩
      · exact ⟨_, s', rfl, H.cur hr (.nonStrict _), hr, Nat.le_refl _⟩
    · exact ⟨(), s', rfl, rfl, hr, Nat.le_refl _⟩
  loopP ht hb := fun s s' hr => loopN ht hb _ _ _ s s' hr (Nat.lt_succ_self _)

omit H in
theorem diverge {α : Type} {d : Bool} {Q : α → α → Prop} {m' : P α} :
    S.rel d Q (fun _ => .diverge) m' := fun _ _ _ => trivial

/-- `parse_directive` reads `allow_strict_directive`. -/
theorem directive {R : Rec} (hR : S.rel true Eq R.expression full.expression) :
    S.rel true Eq (directive R) (directive full) := by
  haveI := base H
  have hq : S.rel true (fun e e' => e = e' ∧
      (S.loose → ∀ w, e = .literal (.string w) → w ≠ t!"use strict"))
      R.expression full.expression := by
    intro s s' hr
    have := hR s s' hr
    cases h : R.expression s with
    | ok e t =>
      rw [h] at this
      obtain ⟨_, t', h', rfl, h2, h3⟩ := this
      exact ⟨e, t', h', ⟨rfl, fun hl w hw => H.quoted hl hr (hw ▸ h')⟩, h2, h3⟩
    | err e t => rw [h] at this; exact this
    | panic => trivial
    | diverge => trivial
  have semi : S.rel false Eq consumeSemicolon consumeSemicolon :=
    consumeSemicolon_t (J := S.judgement) (c := true)
  unfold Ressa.directive
  refine bind (look H) fun i i' hi => bindT hq ?_
  rintro e _ ⟨rfl, hq⟩
  split
  · next w =>
    refine bindE (get fun s s' hr => ?_) fun b => ite (fun _ => unexpectedTokenError H hi) fun _ =>
      bindE semi fun _ => pure rfl
    obtain ⟨o, a, ho, rfl | hl⟩ := H.ctx hr
    · rw [ho]
    · have := beq_false_of_ne (hq hl w rfl)
      rw [this]
      simp
  · exact pure rfl
  · exact pure rfl
  · exact bindE semi fun _ => pure rfl

theorem recN_rel : ∀ (c : Bool) (n), TStepRel S.judgement c (recN n) full
  | _, 0 => by constructor <;> intros <;> exact diverge
  | _, n + 1 => by
    haveI := base H
    haveI := (recN_rel true n).closed (directive H (recN_rel true n).expression)
    rw [full_eq]
    exact step_t

omit H in
theorem ofFuel {α : Type} {d : Bool} {Q : α → α → Prop} {F : Nat → P α} {m' : P α}
    (h : ∀ n, S.rel d Q (F n) m') : S.rel d Q (fun s => F (mu s + 1) s) m' :=
  fun s s' hr => h _ s s' hr

theorem full_rel (c : Bool) : TStepRel S.judgement c full full where
  assign := ofFuel fun n => (recN_rel H c n).assign
  expression := ofFuel fun n => (recN_rel H c n).expression
  unary := ofFuel fun n => (recN_rel H c n).unary
  expo := ofFuel fun n => (recN_rel H c n).expo
  lhs := ofFuel fun n => (recN_rel H c n).lhs
  stmt := ofFuel fun n => (recN_rel H c n).stmt
  listItem := ofFuel fun n => (recN_rel H c n).listItem
  pattern k := ofFuel fun n => (recN_rel H c n).pattern k

theorem nextPart : S.rel true Eq nextPart nextPart := by
  haveI := base H
  haveI := (full_rel H true).closed (directive H (full_rel H true).expression)
  have bindET : ∀ {α β : Type} {m m' : P α} {f f' : α → P β}, S.rel true Eq m m' →
      (∀ a, S.rel false Eq (f a) (f' a)) → S.rel true Eq (m >>= f) (m' >>= f') :=
    fun h k => bindT h fun a _ e => e ▸ k a
  unfold Ressa.nextPart P.and
  refine bindE (bindE (readC H fun _ _ _ => rfl) fun _ => ite (fun _ => lookIs H) fun _ => pure rfl)
    fun _ => ite (fun _ => ?_) fun _ => ?_
  · exact bindET (directive_t (J := S.judgement) (R := full) (R' := full)) fun _ =>
      bindE (modC H (by mod_alike)) fun _ => pure rfl
  · exact bindE (modC H (by mod_alike)) fun _ => (full_rel H true).listItem

theorem nextCall : S.rel false Eq Ressa.next Ressa.next := by
  unfold Ressa.next
  exact bindE (lookIs H) fun _ => ite (fun _ => pure rfl) fun _ =>
    weakenD (bindT (nextPart H) fun _ _ e => e ▸ pure rfl)

theorem parseCall : S.rel false Eq Ressa.parse Ressa.parse := by
  haveI := base H
  unfold Ressa.parse
  refine bindE ?_ fun _ => bindE (readModule H) fun _ => ite (fun _ => pure rfl) fun _ => pure rfl
  exact tUntilP (J := S.judgement) (c := true) (lookIs H) fun _ =>
    bindT (nextPart H) fun _ _ e => e ▸ pure rfl

theorem exprCall : S.rel false Eq full.expression full.expression :=
  weakenD (full_rel H true).expression

/-- Two replies agree up to `err`. -/
inductive Same (S : Twin) : Reply → Reply → Prop
  | nextOk (o) : Same S (.nextOk o) (.nextOk o)
  | parseOk (p) : Same S (.parseOk p) (.parseOk p)
  | exprOk (x) : Same S (.exprOk x) (.exprOk x)
  | nextErr {e e'} : S.err e e' → Same S (.nextErr e) (.nextErr e')
  | parseErr {e e'} : S.err e e' → Same S (.parseErr e) (.parseErr e')
  | exprErr {e e'} : S.err e e' → Same S (.exprErr e) (.exprErr e')

/-- Two lists of replies agree up to `err`. -/
inductive Sames (S : Twin) : List Reply → List Reply → Prop
  | nil : Sames S [] []
  | cons {r r' rs rs'} : Same S r r' → Sames S rs rs' → Sames S (r :: rs) (r' :: rs')

/-- A session can be repeated on the other side. -/
theorem session {s rs s'} (h : Session s rs s') :
    ∀ t, S.R s t → ∃ rs' t', Session t rs' t' ∧ Sames S rs rs' ∧ S.R s' t' := by
  have okCase : ∀ {α : Type} {d : Bool} {m : P α} {a : α} {s s1 t}, S.rel d Eq m m → S.R s t →
      m s = .ok a s1 → ∃ t1, m t = .ok a t1 ∧ S.R s1 t1 := by
    intro α d m a s s1 t hm hr e
    have := e ▸ hm s t hr
    obtain ⟨_, t1, h1, rfl, h2, _⟩ := this
    exact ⟨t1, h1, h2⟩
  have errCase : ∀ {α : Type} {d : Bool} {m : P α} {e s s1 t}, S.rel d Eq m m → S.R s t →
      m s = .err e s1 → ∃ e' t1, m t = .err e' t1 ∧ S.err e e' ∧ S.R s1 t1 := by
    intro α d m a s s1 t hm hr e
    have : S.post d Eq t (.err a s1) (m t) := e ▸ hm s t hr
    obtain ⟨e', t1, h1, h2, h3, _⟩ := this
    exact ⟨e', t1, h1, h2, h3⟩
  induction h with
  | nil => exact fun t hr => ⟨[], t, .nil, .nil, hr⟩
  | nextOk h k ih =>
    intro t hr
    obtain ⟨t1, h1, h2⟩ := okCase (nextCall H) hr h
    obtain ⟨rs', t', k1, k2, k3⟩ := ih t1 h2
    exact ⟨_, t', .nextOk h1 k1, .cons (.nextOk _) k2, k3⟩
  | parseOk h k ih =>
    intro t hr
    obtain ⟨t1, h1, h2⟩ := okCase (parseCall H) hr h
    obtain ⟨rs', t', k1, k2, k3⟩ := ih t1 h2
    exact ⟨_, t', .parseOk h1 k1, .cons (.parseOk _) k2, k3⟩
  | exprOk h k ih =>
    intro t hr
    obtain ⟨t1, h1, h2⟩ := okCase (exprCall H) hr h
    obtain ⟨rs', t', k1, k2, k3⟩ := ih t1 h2
    exact ⟨_, t', .exprOk h1 k1, .cons (.exprOk _) k2, k3⟩
  | nextErr h k ih =>
    intro t hr
    obtain ⟨e', t1, h1, he, h2⟩ := errCase (nextCall H) hr h
    obtain ⟨rs', t', k1, k2, k3⟩ := ih t1 h2
    exact ⟨_, t', .nextErr h1 k1, .cons (.nextErr he) k2, k3⟩
  | parseErr h k ih =>
    intro t hr
    obtain ⟨e', t1, h1, he, h2⟩ := errCase (parseCall H) hr h
    obtain ⟨rs', t', k1, k2, k3⟩ := ih t1 h2
    exact ⟨_, t', .parseErr h1 k1, .cons (.parseErr he) k2, k3⟩
  | exprErr h k ih =>
    intro t hr
    obtain ⟨e', t1, h1, he, h2⟩ := errCase (exprCall H) hr h
    obtain ⟨rs', t', k1, k2, k3⟩ := ih t1 h2
    exact ⟨_, t', .exprErr h1 k1, .cons (.exprErr he) k2, k3⟩

end Twin

end Ressa
