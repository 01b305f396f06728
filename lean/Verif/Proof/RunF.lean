import Verif.Proof.Run

/-!
# Successful runs and the flags of an expression

`RunF C Γ f i m R`: as `Run`, but the flags of the context are known to be at most `f` before, and
`R a g o` holds for flags `g` that are at least those of the context afterwards.

`Keeps m`: a successful run of `m` raises no flag.  `kp` proves it by the structure of `m`.
-/

namespace Ressa

open Gr

/-- The two flags of a context. -/
def Ctx.flags (c : Ctx) : Flags := (c.isAssignmentTarget, c.isBindingElement)

namespace Gr

/-- Every flag of `f` is one of `g`. -/
def Flags.Le (f g : Flags) : Prop := (f.1 = true → g.1 = true) ∧ (f.2 = true → g.2 = true)

theorem Flags.Le.refl {f : Flags} : f.Le f := ⟨id, id⟩
theorem Flags.Le.trans {f g h : Flags} (a : f.Le g) (b : g.Le h) : f.Le h :=
  ⟨fun x => b.1 (a.1 x), fun x => b.2 (a.2 x)⟩
theorem Flags.Le.and {f g f' g' : Flags} (a : f.Le f') (b : g.Le g') : (f.and g).Le (f'.and g') := by
  obtain ⟨f1, f2⟩ := f; obtain ⟨g1, g2⟩ := g
  obtain ⟨h1, h2⟩ := f'; obtain ⟨k1, k2⟩ := g'
  simp only [Flags.Le, Flags.and, Bool.and_eq_true] at *
  exact ⟨fun x => ⟨a.1 x.1, b.1 x.2⟩, fun x => ⟨a.2 x.1, b.2 x.2⟩⟩
theorem Flags.bot_le {f : Flags} : Flags.Le (false, false) f := ⟨nofun, nofun⟩
theorem Flags.le_top {f : Flags} : f.Le (true, true) := ⟨fun _ => rfl, fun _ => rfl⟩
theorem Flags.and_le {f g : Flags} : (f.and g).Le f := by
  simp only [Flags.Le, Flags.and, Bool.and_eq_true]
  exact ⟨And.left, And.left⟩
@[simp] theorem Flags.and_top {f : Flags} : f.and (true, true) = f := by simp [Flags.and]
@[simp] theorem Flags.top_and {f : Flags} : Flags.and (true, true) f = f := by simp [Flags.and]
@[simp] theorem Flags.and_bot {f : Flags} : f.and (false, false) = (false, false) := by
  simp [Flags.and]
@[simp] theorem Flags.bot_and {f : Flags} : Flags.and (false, false) f = (false, false) := by
  simp [Flags.and]
theorem Flags.and_assoc {f g h : Flags} : (f.and g).and h = f.and (g.and h) := by
  simp [Flags.and, Bool.and_assoc]
theorem Flags.and_comm {f g : Flags} : f.and g = g.and f := by
  simp [Flags.and, Bool.and_comm]
@[simp] theorem Flags.and_self {f : Flags} : f.and f = f := by simp [Flags.and]
@[simp] theorem Flags.and_and_self {f g : Flags} : (f.and g).and g = f.and g := by
  rw [Flags.and_assoc, Flags.and_self]

end Gr

/-- The flags an expression can have. -/
def canBe (e : Expr) : Flags := (cover true e, cover false e)

/-- See above. -/
def RunF {α : Type} (C : Cfg) (Γ : Env) (f : Flags) (i : List Tok) (m : P α)
    (R : α → Flags → List Tok → Prop) : Prop :=
  ∀ s a s', At C Γ i s → s.ctx.flags.Le f → m s = .ok a s' →
    ∃ o g, At C Γ o s' ∧ s'.ctx.flags.Le g ∧ R a g o

/-- See above. -/
def Keeps {α : Type} (m : P α) : Prop := ∀ s a s', m s = .ok a s' → s'.ctx.flags.Le s.ctx.flags

variable {C : Cfg} {Γ : Env} {f : Flags} {i : List Tok} {α β : Type}

/-! ## Rules -/

namespace RunF

theorem mono {m : P α} {Q R : α → Flags → List Tok → Prop} (h : RunF C Γ f i m Q)
    (hQ : ∀ a g o, Q a g o → R a g o) : RunF C Γ f i m R := fun s a s' hs hf hm =>
  let ⟨o, g, h1, h2, h3⟩ := h s a s' hs hf hm
  ⟨o, g, h1, h2, hQ a g o h3⟩

/-- The bound may be given by the result. -/
theorem tight {m : P α} {c : α → Flags} {R : α → List Tok → Prop}
    (h : RunF C Γ f i m fun a g o => g.Le (c a) ∧ R a o) :
    RunF C Γ f i m fun a g o => g = c a ∧ R a o := fun s a s' hs hf hm =>
  let ⟨o, _, h1, h2, h3, h4⟩ := h s a s' hs hf hm
  ⟨o, c a, h1, h2.trans h3, rfl, h4⟩

theorem run {m : P α} {R : α → List Tok → Prop}
    (h : RunF C Γ (true, true) i m fun a _ o => R a o) : Run C Γ i m R := fun s a s' hs hm =>
  let ⟨o, _, h1, _, h3⟩ := h s a s' hs Flags.le_top hm
  ⟨o, h1, h3⟩

/-- Nothing is known of the flags afterwards. -/
theorem of_run {m : P α} {R : α → List Tok → Prop} (h : Run C Γ i m R) :
    RunF C Γ f i m fun a g o => g = (true, true) ∧ R a o := fun s a s' hs _ hm =>
  let ⟨o, h1, h2⟩ := h s a s' hs hm
  ⟨o, _, h1, Flags.le_top, rfl, h2⟩

/-- No flag is raised. -/
theorem of_keeps {m : P α} {R : α → List Tok → Prop} (hk : Keeps m) (h : Run C Γ i m R) :
    RunF C Γ f i m fun a g o => g = f ∧ R a o := fun s a s' hs hf hm =>
  let ⟨o, h1, h2⟩ := h s a s' hs hm
  ⟨o, _, h1, (hk s a s' hm).trans hf, rfl, h2⟩

theorem of_never {m : P α} {R} (h : Run C Γ i m fun _ _ => False) : RunF C Γ f i m R :=
  fun s a s' hs _ hm => let ⟨_, _, h⟩ := h s a s' hs hm; h.elim

theorem pure {a : α} {R} (h : R a f i) : RunF C Γ f i (pure a) R := by
  intro s a' s' hs hf hm
  cases hm
  exact ⟨i, f, hs, hf, h⟩

theorem bind {m : P α} {k : α → P β} {R}
    (h : RunF C Γ f i m fun a g o => RunF C Γ g o (k a) R) : RunF C Γ f i (m >>= k) R := by
  intro s b s'' hs hf hm
  obtain ⟨a, s', h1, h2⟩ := bind_eq_ok.1 hm
  obtain ⟨o, g, h3, h4, h5⟩ := h s a s' hs hf h1
  exact h5 s' b s'' h3 h4 h2

theorem ite {p : Prop} [Decidable p] {m m' : P α} {R}
    (h : p → RunF C Γ f i m R) (h' : ¬p → RunF C Γ f i m' R) :
    RunF C Γ f i (if p then m else m') R := by
  split
  · next hp => exact h hp
  · next hp => exact h' hp

theorem never {m : P α} {R} (h : ∀ s a s', m s ≠ .ok a s') : RunF C Γ f i m R :=
  fun s a s' _ _ hm => absurd hm (h s a s')

theorem test {c : P Bool} {T F : Prop} {m m' : P α} {R} (hc : Test C Γ i c T F) (hk : Keeps c)
    (h : T → RunF C Γ f i m R) (h' : F → RunF C Γ f i m' R) :
    RunF C Γ f i (c >>= fun b => if b = true then m else m') R := by
  refine bind ((of_keeps hk hc).mono ?_)
  rintro b g o ⟨rfl, rfl, hT, hF⟩
  cases b
  · exact h' (hF rfl)
  · exact h (hT rfl)

theorem when {c : P Bool} {T F : Prop} {m : P Unit} {R} (hc : Test C Γ i c T F) (hk : Keeps c)
    (h : T → RunF C Γ f i m R) (h' : F → R () f i) : RunF C Γ f i (P.when c m) R :=
  test hc hk h fun hF => pure (h' hF)

/-- The first flag is looked at. -/
theorem testAssign {m m' : P α} {R} (h : RunF C Γ f i m R)
    (h' : f.1 = true → RunF C Γ f i m' R) :
    RunF C Γ f i (readC (fun c => !c.isAssignmentTarget) >>= fun b => if b = true then m else m') R := by
  intro s a s' hs hf hm
  simp only [readC, get_bind] at hm
  cases hb : s.ctx.isAssignmentTarget
  · exact h s a s' hs hf (by simpa [hb] using hm)
  · exact h' (hf.1 hb) s a s' hs hf (by simpa [hb] using hm)

/-- The second flag is looked at. -/
theorem testBind {m m' : P α} {R} (h : RunF C Γ f i m R)
    (h' : f.2 = true → RunF C Γ f i m' R) :
    RunF C Γ f i (readC (fun c => !c.isBindingElement) >>= fun b => if b = true then m else m') R := by
  intro s a s' hs hf hm
  simp only [readC, get_bind] at hm
  cases hb : s.ctx.isBindingElement
  · exact h s a s' hs hf (by simpa [hb] using hm)
  · exact h' (hf.2 hb) s a s' hs hf (by simpa [hb] using hm)

theorem whenAssign {m : P Unit} {R} (h : RunF C Γ f i m R) (h' : f.1 = true → R () f i) :
    RunF C Γ f i (P.when (readC (fun c => !c.isAssignmentTarget)) m) R :=
  testAssign h fun hF => pure (h' hF)

/-- A scope that changes the environment to `Γ'` and the flags to `f'`. -/
theorem inScope {set restore} {m : P α} {R} (Γ' : Env) (f' : Flags) (k : Flags → Flags)
    (h1 : ∀ c : Ctx, c.env C.exact = Γ → (set c).env C.exact = Γ')
    (h2 : ∀ c : Ctx, (set c).hasLineTerm = c.hasLineTerm)
    (h3 : ∀ c x : Ctx, c.env C.exact = Γ → x.env C.exact = Γ' → (restore c x).env C.exact = Γ)
    (h4 : ∀ c x : Ctx, (restore c x).hasLineTerm = x.hasLineTerm)
    (h5 : ∀ c : Ctx, c.flags.Le f → (set c).flags.Le f')
    (h6 : ∀ (c x : Ctx) g, c.flags.Le f → x.flags.Le g → (restore c x).flags.Le (k g))
    (h : RunF C Γ' f' i m fun a g o => R a (k g) o) : RunF C Γ f i (inScope set restore m) R := by
  intro s a s'' hs hf hm
  unfold Ressa.inScope at hm
  obtain ⟨c, _, hc, hm⟩ := bind_eq_ok.1 hm
  cases hc
  obtain ⟨_, _, hc, hm⟩ := bind_eq_ok.1 hm
  cases hc
  obtain ⟨a', s', hm', hm⟩ := bind_eq_ok.1 hm
  obtain ⟨_, _, hc, hm⟩ := bind_eq_ok.1 hm
  cases hc
  cases hm
  have hat : At C Γ' i { s with ctx := set s.ctx } :=
    ⟨hs.cfg, h1 _ hs.env, by rw [← hs.pend]; simp only [St.pend, h2], fun he => by
      have := hs.eof he; simpa only [h2] using this, hs.comments, hs.get⟩
  obtain ⟨o, g, ho, hg, hR⟩ := h _ _ _ hat (h5 _ hf) hm'
  have hat' : At C Γ o { s' with ctx := restore s.ctx s'.ctx } :=
    ⟨ho.cfg, h3 _ _ hs.env ho.env, by rw [← ho.pend]; simp only [St.pend, h4], fun he => by
      have := ho.eof he; simpa only [h4] using this, ho.comments, ho.get⟩
  exact ⟨o, k g, hat', h6 _ _ _ hf hg, hR⟩

theorem modC {φ : Ctx → Ctx} {R : Unit → Flags → List Tok → Prop} (g : Flags)
    (h1 : ∀ c : Ctx, (φ c).env C.exact = c.env C.exact) (h2 : ∀ c : Ctx, (φ c).hasLineTerm = c.hasLineTerm)
    (h3 : ∀ c : Ctx, c.flags.Le f → (φ c).flags.Le g) (h : R () g i) :
    RunF C Γ f i (P.modC φ) R := by
  intro s a s' hs hf hm
  cases hm
  exact ⟨i, g, ⟨hs.cfg, (h1 _).trans hs.env, by rw [← hs.pend]; simp only [St.pend, h2], fun he => by
    have := hs.eof he; simpa only [h2] using this, hs.comments, hs.get⟩, h3 _ hf, h⟩

theorem modKeep {φ : Ctx → Ctx} {R : Unit → Flags → List Tok → Prop}
    (h1 : ∀ c : Ctx, (φ c).env C.exact = c.env C.exact) (h2 : ∀ c : Ctx, (φ c).hasLineTerm = c.hasLineTerm)
    (h3 : ∀ c : Ctx, (φ c).flags = c.flags) (h : R () f i) : RunF C Γ f i (P.modC φ) R :=
  modC f h1 h2 (fun c hc => (h3 c).symm ▸ hc) h

theorem modMember {b : Bool} {R : Unit → Flags → List Tok → Prop} (h : R () (b, false) i) :
    RunF C Γ f i
      (P.modC fun c => { c with isAssignmentTarget := b, isBindingElement := false }) R :=
  modC (b, false) (fun _ => rfl) (fun _ => rfl) (fun _ _ => .refl) h

theorem modBind {b : Bool} {R : Unit → Flags → List Tok → Prop} (h : R () (f.1, b) i) :
    RunF C Γ f i (P.modC fun c => { c with isBindingElement := b }) R :=
  modC (f.1, b) (fun _ => rfl) (fun _ => rfl) (fun _ hc => ⟨hc.1, id⟩) h

theorem notTarget {R : Unit → Flags → List Tok → Prop} (h : R () (false, false) i) :
    RunF C Γ f i notTarget R := modMember h

/-- Two facts about the same runs. -/
theorem and_run {m : P α} {Q R} (h : RunF C Γ f i m Q) (h' : Run C Γ i m R) :
    RunF C Γ f i m fun a g o => Q a g o ∧ R a o := fun s a s' hs hf hm => by
  obtain ⟨o, g, h1, h2, h3⟩ := h s a s' hs hf hm
  obtain ⟨o', h4, h5⟩ := h' s a s' hs hm
  obtain rfl : o = o' := h1.pend.symm.trans h4.pend
  exact ⟨o, g, h1, h2, h3, h5⟩

theorem toRun {m : P α} {c : α → Flags} {R : α → List Tok → Prop}
    (h : RunF C Γ (true, true) i m fun a g o => g = c a ∧ R a o) : Run C Γ i m R :=
  run (h.mono fun _ _ _ h => h.2)

theorem loopN {σ : Type} {test : σ → P (Option α)} {body : σ → P (σ ⊕ α)} {R}
    (I : σ → Flags → List Tok → Prop)
    (h : ∀ x g o, I x g o → RunF C Γ g o (test x) fun r g' o' =>
      match r with
      | some a => R a g' o'
      | none => RunF C Γ g' o' (body x) fun r g'' o'' =>
        match r with
        | .inl x' => I x' g'' o''
        | .inr a => R a g'' o'') :
    ∀ n x f i, I x f i → RunF C Γ f i (Ressa.loopN n test body x) R
  | 0, _, _, _, _ => fun _ _ _ _ _ hm => nomatch hm
  | n + 1, x, f, i, hI => by
    unfold Ressa.loopN
    refine bind ((h x f i hI).mono ?_)
    intro r g' o' hr
    cases r with
    | some a => exact pure hr
    | none =>
      refine bind (RunF.mono hr ?_)
      intro r g'' o'' hr
      cases r with
      | inl x' => exact loopN I h n x' g'' o'' hr
      | inr a => exact pure hr

theorem loopP {σ : Type} {test : σ → P (Option α)} {body : σ → P (σ ⊕ α)} {x : σ} {R}
    (I : σ → Flags → List Tok → Prop) (h0 : I x f i)
    (h : ∀ x g o, I x g o → RunF C Γ g o (test x) fun r g' o' =>
      match r with
      | some a => R a g' o'
      | none => RunF C Γ g' o' (body x) fun r g'' o'' =>
        match r with
        | .inl x' => I x' g'' o''
        | .inr a => R a g'' o'') : RunF C Γ f i (Ressa.loopP test body x) R :=
  fun s a s' hs hf hm => loopN I h (mu s + 1) x f i h0 s a s' hs hf hm

theorem untilP {σ : Type} {cond : P Bool} {body : σ → P σ} {x : σ} {R} {T F : List Tok → Prop}
    (I : σ → Flags → List Tok → Prop) (h0 : I x f i) (ht : ∀ o, Test C Γ o cond (T o) (F o))
    (hk : Keeps cond) (hR : ∀ x g o, I x g o → T o → R x g o)
    (h : ∀ x g o, I x g o → F o → RunF C Γ g o (body x) I) :
    RunF C Γ f i (Ressa.untilP cond body x) R := by
  refine loopP I h0 ?_
  intro x g o hI
  refine test (ht o) hk ?_ ?_
  · intro hT; exact pure (hR x g o hI hT)
  · intro hF
    refine pure (bind ((h x g o hI hF).mono ?_))
    intro x' g' o' hx
    exact pure hx

end RunF

/-! ## Scopes -/

theorem Ctx.flags_inherit {c x : Ctx} : (inheritCover c x).flags = x.flags.and c.flags := rfl

namespace Sf

theorem isolated {m : P α} {R} (h : RunF C Γ (true, true) i m fun a _ o => R a f o) :
    RunF C Γ f i (isolated m) R :=
  RunF.inScope Γ (true, true) (fun _ => f) (fun _ h => h) (fun _ => rfl) (fun _ _ _ h => h)
    (fun _ _ => rfl) (fun _ _ => Flags.le_top) (fun _ _ _ h _ => h) h

theorem inherited {m : P α} {R} (h : RunF C Γ (true, true) i m fun a g o => R a (g.and f) o) :
    RunF C Γ f i (inherited m) R :=
  RunF.inScope Γ (true, true) (·.and f) (fun _ h => h) (fun _ => rfl) (fun _ _ _ h => h)
    (fun _ _ => rfl) (fun _ _ => Flags.le_top) (fun _ _ _ h h' => h'.and h) h

theorem inScope {m : P α} {R} (h : RunF C Γ f i m fun a g o => R a (g.and f) o) :
    RunF C Γ f i (inScope id inheritCover m) R :=
  RunF.inScope Γ f (·.and f) (fun _ h => h) (fun _ => rfl) (fun _ _ _ h => h)
    (fun _ _ => rfl) (fun _ h => h) (fun _ _ _ h h' => h'.and h) h

theorem withAllowIn {b} {m : P α} {R} (h : RunF C (Γ.within b) f i m R) :
    RunF C Γ f i (withAllowIn b m) R :=
  RunF.inScope (Γ.within b) f id (fun _ h => by subst h; rfl) (fun _ => rfl)
    (fun c x h h' => by env_back) (fun _ _ => rfl) (fun _ h => h)
    (fun _ _ _ _ h => h) h

theorem withStrict {m : P α} {R} (h : RunF C Γ.strictly f i m R) :
    RunF C Γ f i (withStrict m) R :=
  RunF.inScope Γ.strictly f id (fun _ h => by subst h; rfl) (fun _ => rfl)
    (fun c x h h' => by env_back) (fun _ _ => rfl) (fun _ h => h)
    (fun _ _ _ _ h => h) h

theorem withDirective {b} {m : P α} {R} (h : RunF C Γ f i m R) :
    RunF C Γ f i (withDirective b m) R :=
  RunF.inScope Γ f id (fun _ h => h) (fun _ => rfl)
    (fun c x h h' => by env_back) (fun _ _ => rfl) (fun _ h => h)
    (fun _ _ _ _ h => h) h

theorem withAwaitYield {a y} {m : P α} {R} (h : RunF C (Γ.fn a (!y && C.exact)) f i m R) :
    RunF C Γ f i (withAwaitYield a y m) R :=
  RunF.inScope (Γ.fn a (!y && C.exact)) f id (fun _ h => by subst h; rfl) (fun _ => rfl)
    (fun c x h h' => by env_back) (fun _ _ => rfl) (fun _ h => h)
    (fun _ _ _ _ h => h) h

theorem withYield {b} {m : P α} {R} (h : RunF C (Γ.yielding (!b && C.exact)) f i m R) :
    RunF C Γ f i (withYield b m) R :=
  RunF.inScope (Γ.yielding (!b && C.exact)) f id (fun _ h => by subst h; rfl) (fun _ => rfl)
    (fun c x h h' => by env_back) (fun _ _ => rfl)
    (fun _ h => h) (fun _ _ _ _ h => h) h

theorem savingYield {m : P α} {R} (h : RunF C Γ f i m R) : RunF C Γ f i (savingYield m) R :=
  RunF.inScope Γ f id (fun _ h => h) (fun _ => rfl) (fun c x h h' => by env_back) (fun _ _ => rfl)
    (fun _ h => h) (fun _ _ _ _ h => h) h

end Sf

/-! ## Raising no flag -/

namespace Keeps

theorem pure {a : α} : Keeps (pure a : P α) := fun _ _ _ h => by cases h; exact .refl

theorem bind {m : P α} {k : α → P β} (h : Keeps m) (h' : ∀ a, Keeps (k a)) : Keeps (m >>= k) := by
  intro s b s'' hm
  obtain ⟨a, s', h1, h2⟩ := bind_eq_ok.1 hm
  exact (h' a _ _ _ h2).trans (h _ _ _ h1)

theorem ite {p : Prop} [Decidable p] {m m' : P α} (h : Keeps m) (h' : Keeps m') :
    Keeps (if p then m else m') := by split <;> assumption

theorem never {m : P α} (h : ∀ s a s', m s ≠ .ok a s') : Keeps m :=
  fun s a s' hm => absurd hm (h s a s')

theorem inScope {set restore} {m : P α} (h1 : ∀ c : Ctx, (set c).flags = c.flags)
    (h2 : ∀ c x : Ctx, (restore c x).flags = x.flags) (h : Keeps m) :
    Keeps (inScope set restore m) := by
  intro s a s'' hm
  unfold Ressa.inScope at hm
  obtain ⟨c, _, hc, hm⟩ := bind_eq_ok.1 hm
  cases hc
  obtain ⟨_, _, hc, hm⟩ := bind_eq_ok.1 hm
  cases hc
  obtain ⟨a', s', hm', hm⟩ := bind_eq_ok.1 hm
  obtain ⟨_, _, hc, hm⟩ := bind_eq_ok.1 hm
  cases hc
  cases hm
  have := h _ _ _ hm'
  show (restore s.ctx s'.ctx).flags.Le s.ctx.flags
  rw [h2]
  exact h1 s.ctx ▸ this

theorem cover {set restore} {m : P α} (h : ∀ c x : Ctx, (restore c x).flags.Le c.flags) :
    Keeps (Ressa.inScope set restore m) := by
  intro s a s'' hm
  unfold Ressa.inScope at hm
  obtain ⟨c, _, hc, hm⟩ := bind_eq_ok.1 hm
  cases hc
  obtain ⟨_, _, hc, hm⟩ := bind_eq_ok.1 hm
  cases hc
  obtain ⟨a', s', hm', hm⟩ := bind_eq_ok.1 hm
  obtain ⟨_, _, hc, hm⟩ := bind_eq_ok.1 hm
  cases hc
  cases hm
  exact h s.ctx s'.ctx

theorem modC {φ : Ctx → Ctx} (h : ∀ c : Ctx, (φ c).flags.Le c.flags) : Keeps (P.modC φ) :=
  fun _ _ _ hm => by cases hm; exact h _

theorem loopN {σ : Type} {test : σ → P (Option α)} {body : σ → P (σ ⊕ α)}
    (h : ∀ x, Keeps (test x)) (h' : ∀ x, Keeps (body x)) :
    ∀ n x, Keeps (Ressa.loopN n test body x)
  | 0, _ => never fun _ _ _ hm => nomatch hm
  | n + 1, x => by
    unfold Ressa.loopN
    refine bind (h x) fun r => ?_
    cases r with
    | some a => exact pure
    | none =>
      refine bind (h' x) fun r => ?_
      cases r with
      | inl x' => exact loopN h h' n x'
      | inr a => exact pure

theorem loopP {σ : Type} {test : σ → P (Option α)} {body : σ → P (σ ⊕ α)} {x : σ}
    (h : ∀ x, Keeps (test x)) (h' : ∀ x, Keeps (body x)) : Keeps (Ressa.loopP test body x) :=
  fun s a s' hm => loopN h h' (mu s + 1) x s a s' hm

theorem untilP {σ : Type} {cond : P Bool} {body : σ → P σ} {x : σ} (h : Keeps cond)
    (h' : ∀ x, Keeps (body x)) : Keeps (Ressa.untilP cond body x) := by
  refine loopP (fun x => bind h fun b => ?_) fun x => bind (h' x) fun _ => pure
  cases b <;> exact pure

end Keeps

/-- A successful run lowers both flags. -/
def Clears {α : Type} (m : P α) : Prop := ∀ s a s', m s = .ok a s' → s'.ctx.flags = (false, false)

namespace Clears

theorem keeps {m : P α} (h : Clears m) : Keeps m :=
  fun s a s' hm => h s a s' hm ▸ Flags.bot_le

theorem right {m : P α} {k : α → P β} (h : ∀ a, Clears (k a)) : Clears (m >>= k) := by
  intro s b s'' hm
  obtain ⟨a, s', _, h2⟩ := bind_eq_ok.1 hm
  exact h a _ _ _ h2

theorem left {m : P α} {k : α → P β} (h : Clears m) (h' : ∀ a, Keeps (k a)) : Clears (m >>= k) := by
  intro s b s'' hm
  obtain ⟨a, s', h1, h2⟩ := bind_eq_ok.1 hm
  have := h' a _ _ _ h2
  rw [h _ _ _ h1] at this
  exact Prod.ext (by simpa [Flags.Le] using this.1) (by simpa [Flags.Le] using this.2)

theorem notTarget : Clears notTarget := fun _ _ _ hm => by cases hm; rfl

theorem inScope {set restore} {m : P α} (h2 : ∀ c x : Ctx, (restore c x).flags = x.flags)
    (h : Clears m) : Clears (inScope set restore m) := by
  intro s a s'' hm
  unfold Ressa.inScope at hm
  obtain ⟨c, _, hc, hm⟩ := bind_eq_ok.1 hm
  cases hc
  obtain ⟨_, _, hc, hm⟩ := bind_eq_ok.1 hm
  cases hc
  obtain ⟨a', s', hm', hm⟩ := bind_eq_ok.1 hm
  obtain ⟨_, _, hc, hm⟩ := bind_eq_ok.1 hm
  cases hc
  cases hm
  exact (h2 s.ctx s'.ctx).trans (h _ _ _ hm')

end Clears

theorem RunF.of_clears {m : P α} {R : α → List Tok → Prop} (hk : Clears m) (h : Run C Γ i m R) :
    RunF C Γ f i m fun a g o => g = (false, false) ∧ R a o := fun s a s' hs _ hm =>
  let ⟨o, h1, h2⟩ := h s a s' hs hm
  ⟨o, _, h1, hk s a s' hm ▸ .refl, rfl, h2⟩

namespace Kp

theorem P.get {φ : St → α} : Keeps (P.get φ) := fun _ _ _ h => by cases h; exact .refl
theorem P.fail {e} : Keeps (P.fail (α := α) e) := Keeps.never fun _ _ _ h => nomatch h
theorem P.panic : Keeps (P.panic (α := α)) := Keeps.never fun _ _ _ h => nomatch h

theorem P.ofOption {x : Option α} : Keeps (P.ofOption x) := by
  intro s a s' hm
  cases x with
  | none => exact nomatch hm
  | some a' => cases hm; exact .refl

theorem P.and {a b : P Bool} (ha : Keeps a) (hb : Keeps b) : Keeps (P.and a b) :=
  ha.bind fun _ => Keeps.ite hb Keeps.pure
theorem P.or {a b : P Bool} (ha : Keeps a) (hb : Keeps b) : Keeps (P.or a b) :=
  ha.bind fun _ => Keeps.ite Keeps.pure hb
theorem P.not {a : P Bool} (ha : Keeps a) : Keeps (P.not a) := ha.bind fun _ => Keeps.pure
theorem P.when {a : P Bool} {m} (ha : Keeps a) (hm : Keeps m) : Keeps (P.when a m) :=
  ha.bind fun _ => Keeps.ite hm Keeps.pure

theorem isolated {m : P α} : Keeps (isolated m) := Keeps.cover fun _ _ => .refl
theorem inherited {m : P α} : Keeps (inherited m) := Keeps.cover fun c x => by
  rw [Ctx.flags_inherit]; exact Flags.and_comm ▸ Flags.and_le
theorem withAllowIn {b} {m : P α} (h : Keeps m) : Keeps (withAllowIn b m) :=
  Keeps.inScope (fun _ => rfl) (fun _ _ => rfl) h
theorem withYield {b} {m : P α} (h : Keeps m) : Keeps (withYield b m) :=
  Keeps.inScope (fun _ => rfl) (fun _ _ => rfl) h
theorem withStrict {m : P α} (h : Keeps m) : Keeps (withStrict m) :=
  Keeps.inScope (fun _ => rfl) (fun _ _ => rfl) h
theorem withDirective {b} {m : P α} (h : Keeps m) : Keeps (withDirective b m) :=
  Keeps.inScope (fun _ => rfl) (fun _ _ => rfl) h
theorem notTarget : Keeps notTarget := Keeps.modC fun _ => Flags.bot_le
theorem setYield {b} : Keeps (setYield b) := Keeps.modC fun _ => .refl

theorem nextItemGo {ts : List Tok} : ∀ {span}, Keeps (nextItemGo span ts) := by
  induction ts with
  | nil =>
    intro span s a s' h
    simp only [Ressa.nextItemGo] at h
    split at h
    · split at h
      · exact nomatch h
      · cases h; exact .refl
    · exact nomatch h
  | cons t ts ih =>
    intro span s a s' h
    simp only [Ressa.nextItemGo] at h
    cases hu : updatePositions s.stream s.lookPos span t.item.span.start with
    | none => rw [hu] at h; exact nomatch h
    | some q =>
      rw [hu] at h
      simp only at h
      split at h
      · split at h
        · exact nomatch h
        · have := ih _ _ _ h
          exact this
      · cases h; exact .refl

theorem nextItem : Keeps nextItem := fun s a s' h => nextItemGo s a s' h

theorem positionOf {it} : Keeps (positionOf it) := by
  intro s a s' hm
  unfold Ressa.positionOf at hm
  split at hm
  · cases hm; exact .refl
  · exact nomatch hm

theorem getString {it} : Keeps (getString it) := by
  intro s a s' hm
  unfold Ressa.getString at hm
  split at hm
  · cases hm; exact .refl
  · exact nomatch hm

theorem streamSlice {it} : Keeps (streamSlice it) := by
  intro s a s' hm
  unfold Ressa.streamSlice at hm
  split at hm
  · cases hm; exact .refl
  · exact nomatch hm

theorem ifNotTolerant {m} : Keeps (ifNotTolerant m) := by
  intro s a s' hm
  unfold Ressa.ifNotTolerant at hm
  split at hm
  · cases hm; exact .refl
  · split at hm
    · next a _ _ => exact nomatch a
    all_goals exact nomatch hm

theorem expectedTokenError {it l} : Keeps (expectedTokenError (α := α) it l) :=
  Keeps.never fun _ _ _ hm => by
    unfold Ressa.expectedTokenError at hm
    split at hm <;> exact nomatch hm

theorem unexpectedTokenError {it l} : Keeps (unexpectedTokenError (α := α) it l) :=
  Keeps.never fun _ _ _ hm => by
    unfold Ressa.unexpectedTokenError at hm
    split at hm <;> exact nomatch hm

theorem expectedLook {l} : Keeps (expectedLook (α := α) l) :=
  Keeps.never fun _ _ _ hm => by
    unfold Ressa.expectedLook Ressa.expectedTokenError at hm
    split at hm <;> exact nomatch hm

theorem unexpectedLook {l} : Keeps (unexpectedLook (α := α) l) :=
  Keeps.never fun _ _ _ hm => by
    unfold Ressa.unexpectedLook Ressa.unexpectedTokenError at hm
    split at hm <;> exact nomatch hm

theorem opError {l} : Keeps (opError (α := α) l) := Keeps.never fun _ _ _ hm => nomatch hm
theorem redeclError {l} : Keeps (redeclError (α := α) l) := Keeps.never fun _ _ _ hm => nomatch hm
theorem reinterpretError {l l'} : Keeps (reinterpretError (α := α) l l') :=
  Keeps.never fun _ _ _ hm => nomatch hm

end Kp

end Ressa
