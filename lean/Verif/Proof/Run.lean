import Lean
import Verif.Proof.Safe
import Verif.Proof.Eval
import Verif.Spec.Grammar

/-!
# Successful runs, seen as steps on the unread items

`Run C Γ i m R`: whenever the parser stands in front of the items `i` in the environment `Γ` and
`m` succeeds, the environment is `Γ` again and `R a o` holds of the result `a` and the items `o`
that remain.  Everything here is about success only.

`sx` follows the structure of a computation and leaves the goals at its ends.
-/

namespace Ressa

open Gr

/-- The part of the context that is a syntactic environment; `e` says whether `yield` is
followed. -/
def Ctx.env (c : Ctx) (e : Bool := false) : Env :=
  { strict := c.strict, await := c.await, inFn := c.inFunctionBody, allowIn := c.allowIn
    labels := c.labelSet, gen := !c.allowYield && e }

/-- A context with the given environment and line break flag. -/
def Gr.Env.ctx (Γ : Env) (nl : Bool) (x : Ctx) : Ctx :=
  { x with strict := Γ.strict, await := Γ.await, inFunctionBody := Γ.inFn, allowIn := Γ.allowIn
           labelSet := Γ.labels, hasLineTerm := nl }

theorem Ctx.env_ctx {c : Ctx} {e} {Γ : Env} {nl} (h : c.env e = Γ) (h' : c.hasLineTerm = nl) :
    c = Γ.ctx nl c := by
  subst h h'; rfl

/-- What is fixed. -/
def St.cfg (s : St) : Cfg :=
  { ext := s.ext, stream := s.stream, tolerant := s.tolerant, isModule := s.isModule
    pendEnd := s.pendEnd }

/-- The items the parser has not consumed: the look-ahead and what the scanner still has, without
the comments. -/
def St.pend (s : St) : List Tok :=
  if s.foundEof then []
  else ⟨s.ctx.hasLineTerm, s.look⟩ :: s.rest.filter fun t => !t.item.token.isComment

/-- The parser stands in front of `i` in the environment `Γ`. -/
structure At (C : Cfg) (Γ : Env) (i : List Tok) (s : St) : Prop where
  cfg : { s.cfg with exact := C.exact } = C
  env : s.ctx.env C.exact = Γ
  pend : s.pend = i
  eof : s.foundEof = true → s.look.token = .eof ∧ s.rest = [] ∧ s.ctx.hasLineTerm = s.pendEnd
  comments : ∀ t ∈ s.rest, t.item.token.isComment = true →
    (sliceB s.stream t.item.span.start t.item.span.stop).isSome = true
  get : C.exact = true → ∀ t ∈ i, C.text t ≠ t!"get"

/-- See above. -/
def Run {α : Type} (C : Cfg) (Γ : Env) (i : List Tok) (m : P α) (R : α → List Tok → Prop) : Prop :=
  ∀ s a s', At C Γ i s → m s = .ok a s' → ∃ o, At C Γ o s' ∧ R a o

/-- A test: nothing is consumed; `T` holds if the answer is yes and `F` if it is no. -/
def Test (C : Cfg) (Γ : Env) (i : List Tok) (m : P Bool) (T F : Prop) : Prop :=
  Run C Γ i m fun b o => o = i ∧ (b = true → T) ∧ (b = false → F)

variable {C : Cfg} {Γ : Env} {i : List Tok} {α β : Type}

theorem At.head {s} (h : At C Γ i s) : s.look.token = head i := by
  have hp := h.pend
  unfold St.pend at hp
  by_cases he : s.foundEof = true
  · rw [if_pos he] at hp; subst hp; exact (h.eof he).1
  · rw [if_neg he] at hp; subst hp; rfl

theorem At.nl {s} (h : At C Γ i s) : s.ctx.hasLineTerm = C.nl i := by
  have hp := h.pend
  unfold St.pend at hp
  by_cases he : s.foundEof = true
  · rw [if_pos he] at hp; subst hp
    rw [(h.eof he).2.2, show s.pendEnd = C.pendEnd from h.cfg ▸ rfl]; rfl
  · rw [if_neg he] at hp; subst hp; rfl

/-- The item the parser looks at. -/
def itemIs (i : List Tok) (it : Item) : Prop :=
  match i with
  | [] => it.token = .eof
  | t :: _ => it = t.item

theorem At.item {s} (h : At C Γ i s) : itemIs i s.look := by
  have hp := h.pend
  unfold St.pend at hp
  by_cases he : s.foundEof = true
  · rw [if_pos he] at hp; subst hp; exact (h.eof he).1
  · rw [if_neg he] at hp; subst hp; rfl

theorem itemIs.token {i it} (h : itemIs i it) : it.token = head i := by
  cases i with
  | nil => exact h
  | cons t r => rw [show it = t.item from h]; rfl

theorem itemIs.text {w i it} (h : itemIs i it) : C.textIs w i (C.textOf it == w) := by
  cases i with
  | nil => trivial
  | cons t r => rw [show it = t.item from h]; simp [Cfg.textIs, Cfg.text]

theorem nextItemGo_at {e} {ts : List Tok} : ∀ {span s a s'},
    nextItemGo span ts s = .ok a s' → s.foundEof = false →
    (∀ t ∈ ts, t.item.token.isComment = true →
      (sliceB s.stream t.item.span.start t.item.span.stop).isSome = true) →
    (e = true → ∀ t ∈ ts.filter fun t => !t.item.token.isComment, s.cfg.text t ≠ t!"get") →
    a = s.look ∧ At { s.cfg with exact := e } (s.ctx.env e)
      (ts.filter fun t => !t.item.token.isComment) s' := by
  induction ts with
  | nil =>
    intro span s a s' h hf hc hg
    simp only [nextItemGo, hf] at h
    split at h
    · next he =>
      simp only [Bool.false_eq_true, if_false, Res.ok.injEq] at h
      obtain ⟨rfl, rfl⟩ := h
      refine ⟨rfl, rfl, rfl, rfl, fun _ => ⟨?_, rfl, rfl⟩, by simp, by simp⟩
      cases ht : s.look.token <;> simp_all [Token.isEof]
    · exact nomatch h
  | cons t ts ih =>
    intro span s a s' h hf hc hg
    simp only [nextItemGo] at h
    cases hu : updatePositions s.stream s.lookPos span t.item.span.start with
    | none => rw [hu] at h; exact nomatch h
    | some q =>
      rw [hu] at h
      simp only at h
      cases ht : t.item.token with
      | comment kind =>
        rw [ht] at h
        simp only at h
        split at h
        · exact nomatch h
        · have := ih h hf (fun t' ht' => hc t' (List.mem_cons_of_mem _ ht'))
            (fun he t' ht' => hg he t' (by simpa [ht, Token.isComment] using ht'))
          simp only [List.filter_cons, ht, Token.isComment, Bool.not_true, Bool.false_eq_true,
            if_false]
          exact this
      | _ =>
        rw [ht] at h
        simp only [Res.ok.injEq] at h
        obtain ⟨rfl, rfl⟩ := h
        refine ⟨rfl, rfl, rfl, ?_, ?_, fun t' ht' => hc t' (List.mem_cons_of_mem _ ht'), hg⟩
        · simp [St.pend, hf, ht, Token.isComment]
        · intro h'; exact absurd (hf ▸ h' : false = true) (by simp)

theorem At.next {s a s'} (h : At C Γ i s) (hr : nextItem s = .ok a s') :
    ∃ t o, i = t :: o ∧ a = t.item ∧ At C Γ o s' := by
  by_cases he : s.foundEof = true
  · exfalso
    obtain ⟨h1, h2, _⟩ := h.eof he
    unfold nextItem at hr
    rw [h2] at hr
    simp [nextItemGo, h1, he, Token.isEof] at hr
  · have hp : i = ⟨s.ctx.hasLineTerm, s.look⟩ :: s.rest.filter fun t => !t.item.token.isComment := by
      rw [← h.pend, St.pend, if_neg he]
    obtain ⟨h1, h2⟩ := nextItemGo_at (e := C.exact) hr (by simpa using he) h.comments fun e t ht => by
      have := h.get e t (hp ▸ List.mem_cons_of_mem _ ht)
      rwa [← h.cfg] at this
    rw [h.cfg, h.env] at h2
    exact ⟨⟨s.ctx.hasLineTerm, s.look⟩, _, hp, h1, h2⟩

/-! ## Rules -/

namespace Run

/-- What is known of the items in front. -/
theorem noGet {m : P α} {R} (h : (C.exact = true → ∀ t ∈ i, C.text t ≠ t!"get") → Run C Γ i m R) :
    Run C Γ i m R := fun s a s' hs hm => h hs.get s a s' hs hm

theorem mono {m : P α} {Q R : α → List Tok → Prop} (h : Run C Γ i m Q) (hQ : ∀ a o, Q a o → R a o) :
    Run C Γ i m R := fun s a s' hs hm =>
  let ⟨o, h1, h2⟩ := h s a s' hs hm
  ⟨o, h1, hQ a o h2⟩

theorem pure {a : α} {R} (h : R a i) : Run C Γ i (pure a) R := by
  intro s a' s' hs hm
  cases hm
  exact ⟨i, hs, h⟩

theorem bind {m : P α} {k : α → P β} {R}
    (h : Run C Γ i m fun a o => Run C Γ o (k a) R) : Run C Γ i (m >>= k) R := by
  intro s b s'' hs hm
  obtain ⟨a, s', h1, h2⟩ := bind_eq_ok.1 hm
  obtain ⟨o, h3, h4⟩ := h s a s' hs h1
  exact h4 s' b s'' h3 h2

theorem ite {p : Prop} [Decidable p] {m m' : P α} {R}
    (h : p → Run C Γ i m R) (h' : ¬p → Run C Γ i m' R) : Run C Γ i (if p then m else m') R := by
  split
  · next hp => exact h hp
  · next hp => exact h' hp

theorem never {m : P α} {R} (h : ∀ s a s', m s ≠ .ok a s') : Run C Γ i m R :=
  fun s a s' _ hm => absurd hm (h s a s')

theorem test {c : P Bool} {T F : Prop} {m m' : P α} {R} (hc : Test C Γ i c T F)
    (h : T → Run C Γ i m R) (h' : F → Run C Γ i m' R) :
    Run C Γ i (c >>= fun b => if b = true then m else m') R := by
  refine bind (hc.mono ?_)
  rintro b o ⟨rfl, hT, hF⟩
  cases b
  · exact h' (hF rfl)
  · exact h (hT rfl)

theorem when {c : P Bool} {T F : Prop} {m : P Unit} {R} (hc : Test C Γ i c T F)
    (h : T → Run C Γ i m R) (h' : F → R () i) : Run C Γ i (P.when c m) R :=
  test hc h fun hF => pure (h' hF)

/-- A scope that changes the environment to `Γ'` and puts it back. -/
theorem inScope {set restore} {m : P α} {R} (Γ' : Env)
    (h1 : ∀ c : Ctx, c.env C.exact = Γ → (set c).env C.exact = Γ')
    (h2 : ∀ c : Ctx, (set c).hasLineTerm = c.hasLineTerm)
    (h3 : ∀ c x : Ctx, c.env C.exact = Γ → x.env C.exact = Γ' → (restore c x).env C.exact = Γ)
    (h4 : ∀ c x : Ctx, (restore c x).hasLineTerm = x.hasLineTerm)
    (h : Run C Γ' i m R) : Run C Γ i (inScope set restore m) R := by
  intro s a s'' hs hm
  unfold Ressa.inScope at hm
  obtain ⟨c, _, hc, hm⟩ := bind_eq_ok.1 hm
  cases hc
  obtain ⟨_, _, hc, hm⟩ := bind_eq_ok.1 hm
  cases hc
  obtain ⟨a', s', hm', hm⟩ := bind_eq_ok.1 hm
  obtain ⟨_, _, hc, hm⟩ := bind_eq_ok.1 hm
  cases hc
  cases hm
  have hat : At C Γ' i { s with ctx := set s.ctx } :=
    ⟨hs.cfg, h1 _ hs.env, by rw [← hs.pend]; simp only [St.pend, h2], fun he => by
      have := hs.eof he; simpa only [h2] using this, hs.comments, hs.get⟩
  obtain ⟨o, ho, hR⟩ := h _ _ _ hat hm'
  have hat' : At C Γ o { s' with ctx := restore s.ctx s'.ctx } :=
    ⟨ho.cfg, h3 _ _ hs.env ho.env, by rw [← ho.pend]; simp only [St.pend, h4], fun he => by
      have := ho.eof he; simpa only [h4] using this, ho.comments, ho.get⟩
  exact ⟨o, hat', hR⟩

theorem modC {f : Ctx → Ctx} {R : Unit → List Tok → Prop}
    (h1 : ∀ c : Ctx, (f c).env C.exact = c.env C.exact)
    (h2 : ∀ c : Ctx, (f c).hasLineTerm = c.hasLineTerm) (h : R () i) : Run C Γ i (P.modC f) R := by
  intro s a s' hs hm
  cases hm
  exact ⟨i, ⟨hs.cfg, (h1 _).trans hs.env, by rw [← hs.pend]; simp only [St.pend, h2], fun he => by
    have := hs.eof he; simpa only [h2] using this, hs.comments, hs.get⟩, h⟩

/-- Loops. -/
theorem loopN {σ : Type} {test : σ → P (Option α)} {body : σ → P (σ ⊕ α)} {R}
    (I : σ → List Tok → Prop)
    (h : ∀ x o, I x o → Run C Γ o (test x) fun r o' =>
      match r with
      | some a => R a o'
      | none => Run C Γ o' (body x) fun r o'' =>
        match r with
        | .inl x' => I x' o''
        | .inr a => R a o'') :
    ∀ n x i, I x i → Run C Γ i (Ressa.loopN n test body x) R
  | 0, _, _, _ => fun _ _ _ _ hm => nomatch hm
  | n + 1, x, i, hI => by
    unfold Ressa.loopN
    refine bind ((h x i hI).mono ?_)
    intro r o' hr
    cases r with
    | some a => exact pure hr
    | none =>
      refine bind (Run.mono hr ?_)
      intro r o'' hr
      cases r with
      | inl x' => exact loopN I h n x' o'' hr
      | inr a => exact pure hr

theorem loopP {σ : Type} {test : σ → P (Option α)} {body : σ → P (σ ⊕ α)} {x : σ} {R}
    (I : σ → List Tok → Prop) (h0 : I x i)
    (h : ∀ x o, I x o → Run C Γ o (test x) fun r o' =>
      match r with
      | some a => R a o'
      | none => Run C Γ o' (body x) fun r o'' =>
        match r with
        | .inl x' => I x' o''
        | .inr a => R a o'') : Run C Γ i (Ressa.loopP test body x) R :=
  fun s a s' hs hm => loopN I h (mu s + 1) x i h0 s a s' hs hm

theorem untilP {σ : Type} {cond : P Bool} {body : σ → P σ} {x : σ} {R} {T F : List Tok → Prop}
    (I : σ → List Tok → Prop) (h0 : I x i) (ht : ∀ o, Test C Γ o cond (T o) (F o))
    (hR : ∀ x o, I x o → T o → R x o)
    (h : ∀ x o, I x o → F o → Run C Γ o (body x) I) : Run C Γ i (Ressa.untilP cond body x) R := by
  refine loopP I h0 ?_
  intro x o hI
  refine test (ht o) ?_ ?_
  · intro hT; exact pure (hR x o hI hT)
  · intro hF
    refine pure (bind ((h x o hI hF).mono ?_))
    intro x' o' hx
    exact pure hx

end Run

/-! ## Tests -/

namespace Test

theorem and {a b : P Bool} {Ta Fa Tb Fb} (ha : Test C Γ i a Ta Fa) (hb : Test C Γ i b Tb Fb) :
    Test C Γ i (P.and a b) (Ta ∧ Tb) (Fa ∨ Fb) := by
  refine Run.test ha (fun hT => ?_) (fun hF => Run.pure ⟨rfl, by simp, fun _ => .inl hF⟩)
  exact hb.mono fun b o ⟨h1, h2, h3⟩ => ⟨h1, fun h => ⟨hT, h2 h⟩, fun h => .inr (h3 h)⟩

theorem or {a b : P Bool} {Ta Fa Tb Fb} (ha : Test C Γ i a Ta Fa) (hb : Test C Γ i b Tb Fb) :
    Test C Γ i (P.or a b) (Ta ∨ Tb) (Fa ∧ Fb) := by
  refine Run.test ha (fun hT => Run.pure ⟨rfl, fun _ => .inl hT, by simp⟩) (fun hF => ?_)
  exact hb.mono fun b o ⟨h1, h2, h3⟩ => ⟨h1, fun h => .inr (h2 h), fun h => ⟨hF, h3 h⟩⟩

theorem not {a : P Bool} {Ta Fa} (ha : Test C Γ i a Ta Fa) : Test C Γ i (P.not a) Fa Ta := by
  refine Run.bind (ha.mono ?_)
  rintro b o ⟨rfl, h2, h3⟩
  exact Run.pure ⟨rfl, fun h => h3 (by simpa using h), fun h => h2 (by simpa using h)⟩

theorem pure {b : Bool} : Test C Γ i (Pure.pure b) (b = true) (b = false) :=
  Run.pure ⟨rfl, id, id⟩

theorem get {f : St → Bool} : Test C Γ i (P.get f) (∃ s, At C Γ i s ∧ f s = true)
    (∃ s, At C Γ i s ∧ f s = false) := by
  intro s a s' hs hm
  cases hm
  exact ⟨i, hs, rfl, fun h => ⟨s, hs, h⟩, fun h => ⟨s, hs, h⟩⟩

theorem lookIs {f : Token → Bool} :
    Test C Γ i (lookIs f) (f (head i) = true) (f (head i) = false) :=
  get.mono fun _ _ ⟨h1, h2, h3⟩ => ⟨h1, fun h => let ⟨_, hs, h⟩ := h2 h; hs.head ▸ h,
    fun h => let ⟨_, hs, h⟩ := h3 h; hs.head ▸ h⟩

theorem atPunct {p : Punct} :
    Test C Γ i (atPunct p) (Gr.head i = .punct p) (Gr.head i ≠ .punct p) :=
  lookIs.mono fun _ _ ⟨h1, h2, h3⟩ => ⟨h1, fun h => matchesPunct_iff.1 (h2 h),
    fun h h' => by simpa [h'] using h3 h⟩

theorem atKeyword {k : Keyword} :
    Test C Γ i (atKeyword k) (Gr.head i = .keyword k) (Gr.head i ≠ .keyword k) :=
  lookIs.mono fun _ _ ⟨h1, h2, h3⟩ => ⟨h1, fun h => matchesKeyword_iff.1 (h2 h),
    fun h h' => by simpa [h'] using h3 h⟩

theorem readC {f : Ctx → Bool} :
    Test C Γ i (readC f) (∃ x, f (Γ.ctx (C.nl i) x) = true) (∃ x, f (Γ.ctx (C.nl i) x) = false) :=
  get.mono fun _ _ ⟨h1, h2, h3⟩ =>
    ⟨h1, fun h => let ⟨s, hs, h⟩ := h2 h; ⟨s.ctx, Ctx.env_ctx hs.env hs.nl ▸ h⟩,
      fun h => let ⟨s, hs, h⟩ := h3 h; ⟨s.ctx, Ctx.env_ctx hs.env hs.nl ▸ h⟩⟩

/-- A read that depends on the meaning of `yield`. -/
theorem readY {f : Ctx → Bool} :
    Test C Γ i (Ressa.readC f)
      (∃ x : Ctx, Γ.gen = (!x.allowYield && C.exact) ∧ f (Γ.ctx (C.nl i) x) = true)
      (∃ x : Ctx, Γ.gen = (!x.allowYield && C.exact) ∧ f (Γ.ctx (C.nl i) x) = false) :=
  get.mono fun _ _ ⟨h1, h2, h3⟩ =>
    ⟨h1, fun h => let ⟨s, hs, h⟩ := h2 h
        ⟨s.ctx, (congrArg Env.gen hs.env).symm, Ctx.env_ctx hs.env hs.nl ▸ h⟩,
      fun h => let ⟨s, hs, h⟩ := h3 h
        ⟨s.ctx, (congrArg Env.gen hs.env).symm, Ctx.env_ctx hs.env hs.nl ▸ h⟩⟩

theorem readModule : Test C Γ i readModule (C.isModule = true) (C.isModule = false) :=
  get.mono fun _ _ ⟨h1, h2, h3⟩ => ⟨h1, fun h => let ⟨_, hs, h⟩ := h2 h; hs.cfg ▸ h,
      fun h => let ⟨_, hs, h⟩ := h3 h; hs.cfg ▸ h⟩

theorem isStrictReservedTok {t : Token} : Test C Γ i (isStrictReservedTok t)
    (C.ext.isStrictReserved t = true) (C.ext.isStrictReserved t = false) :=
  get.mono fun _ _ ⟨h1, h2, h3⟩ => ⟨h1, fun h => let ⟨_, hs, h⟩ := h2 h; hs.cfg ▸ h,
      fun h => let ⟨_, hs, h⟩ := h3 h; hs.cfg ▸ h⟩

end Test

/-! ## Primitives -/

namespace Rn

theorem nextItem : Run C Γ i nextItem fun it o => ∃ t, i = t :: o ∧ it = t.item :=
  fun _ _ _ hs hm => let ⟨t, o, h1, h2, h3⟩ := hs.next hm; ⟨o, h3, t, h1, h2⟩

theorem skipItem : Run C Γ i skipItem fun _ o => ∃ t, i = t :: o := by
  refine Run.bind (nextItem.mono ?_)
  rintro _ o ⟨t, rfl, rfl⟩
  exact Run.pure ⟨t, rfl⟩

theorem get {f : St → α} : Run C Γ i (P.get f) fun a o => o = i ∧ ∃ s, At C Γ i s ∧ a = f s := by
  intro s a s' hs hm
  cases hm
  exact ⟨i, hs, rfl, s, hs, rfl⟩

theorem readC {f : Ctx → α} :
    Run C Γ i (readC f) fun a o => o = i ∧ ∃ x, a = f (Γ.ctx (C.nl i) x) :=
  get.mono fun _ _ ⟨h1, s, hs, h⟩ => ⟨h1, s.ctx, h.trans (congrArg f (Ctx.env_ctx hs.env hs.nl))⟩

theorem look : Run C Γ i look fun it o => o = i ∧ itemIs i it ∧ it.token = head i :=
  get.mono fun _ _ ⟨h1, _, hs, h⟩ => ⟨h1, h ▸ hs.item, h ▸ hs.head⟩

theorem lookTok : Run C Γ i lookTok fun t o => o = i ∧ t = head i :=
  get.mono fun _ _ ⟨h1, _, hs, h⟩ => ⟨h1, h ▸ hs.head⟩

theorem lookPos : Run C Γ i lookPos fun _ o => o = i :=
  get.mono fun _ _ ⟨h1, _⟩ => h1

theorem curPos : Run C Γ i curPos fun _ o => o = i :=
  get.mono fun _ _ ⟨h1, _⟩ => h1

theorem lookIs {f : Token → Bool} : Run C Γ i (lookIs f) fun b o => o = i ∧ b = f (head i) :=
  get.mono fun _ _ ⟨h1, _, hs, h⟩ => ⟨h1, h ▸ congrArg f hs.head⟩

theorem atPunct {p : Punct} :
    Run C Γ i (atPunct p) fun b o => o = i ∧ b = (head i).matchesPunct p := lookIs

theorem atKeyword {k : Keyword} :
    Run C Γ i (atKeyword k) fun b o => o = i ∧ b = (head i).matchesKeyword k := lookIs

theorem isRestrictedTok {t} : Run C Γ i (isRestrictedTok t) fun _ o => o = i :=
  get.mono fun _ _ ⟨h1, _⟩ => h1

theorem isStrictReservedTok {t} :
    Run C Γ i (isStrictReservedTok t) fun b o => o = i ∧ b = C.ext.isStrictReserved t :=
  get.mono fun _ _ ⟨h1, _, hs, h⟩ => ⟨h1, h.trans (hs.cfg ▸ rfl)⟩

theorem isLiteralTok {t} : Run C Γ i (isLiteralTok t) fun _ o => o = i :=
  get.mono fun _ _ ⟨h1, _⟩ => h1

theorem atQualifiedPropKey : Run C Γ i atQualifiedPropKey fun _ o => o = i :=
  get.mono fun _ _ ⟨h1, _⟩ => h1

theorem scanPeek : Run C Γ i scanPeek fun _ o => o = i :=
  get.mono fun _ _ ⟨h1, _⟩ => h1

theorem positionOf {it} : Run C Γ i (positionOf it) fun _ o => o = i := by
  intro s a s' hs hm
  unfold Ressa.positionOf at hm
  split at hm
  · cases hm; exact ⟨i, hs, rfl⟩
  · exact nomatch hm

theorem getString {it} : Run C Γ i (getString it) fun w o => o = i ∧ w = C.textOf it := by
  intro s a s' hs hm
  unfold Ressa.getString at hm
  split at hm
  · next h => cases hm; exact ⟨i, hs, rfl, by rw [← hs.cfg]; simp [Cfg.textOf, St.cfg, h]⟩
  · exact nomatch hm

theorem streamSlice {it} : Run C Γ i (streamSlice it) fun w o => o = i ∧ w = C.textOf it := by
  intro s a s' hs hm
  unfold Ressa.streamSlice at hm
  split at hm
  · next h => cases hm; exact ⟨i, hs, rfl, by rw [← hs.cfg]; simp [Cfg.textOf, St.cfg, h]⟩
  · exact nomatch hm

theorem stringForOrEmpty {it} :
    Run C Γ i (stringForOrEmpty it) fun w o => o = i ∧ w = C.textOf it :=
  get.mono fun _ _ ⟨h1, _, hs, h⟩ => ⟨h1, h.trans (hs.cfg ▸ rfl)⟩

theorem P.ofOption {x : Option α} : Run C Γ i (P.ofOption x) fun a o => o = i ∧ x = some a := by
  intro s a s' hs hm
  cases x with
  | none => exact nomatch hm
  | some a' => cases hm; exact ⟨i, hs, rfl, rfl⟩

theorem expectedTokenError {it l} {R} : Run C Γ i (expectedTokenError (α := α) it l) R :=
  Run.never fun _ _ _ hm => by
    unfold Ressa.expectedTokenError at hm
    split at hm <;> exact nomatch hm

theorem unexpectedTokenError {it l} {R} : Run C Γ i (unexpectedTokenError (α := α) it l) R :=
  Run.never fun _ _ _ hm => by
    unfold Ressa.unexpectedTokenError at hm
    split at hm <;> exact nomatch hm

theorem expectedLook {l} {R} : Run C Γ i (expectedLook (α := α) l) R :=
  Run.never fun _ _ _ hm => by
    unfold Ressa.expectedLook Ressa.expectedTokenError at hm
    split at hm <;> exact nomatch hm

theorem unexpectedLook {l} {R} : Run C Γ i (unexpectedLook (α := α) l) R :=
  Run.never fun _ _ _ hm => by
    unfold Ressa.unexpectedLook Ressa.unexpectedTokenError at hm
    split at hm <;> exact nomatch hm

theorem opError {l} {R} : Run C Γ i (opError (α := α) l) R :=
  Run.never fun _ _ _ hm => nomatch hm

theorem redeclError {l} {R} : Run C Γ i (redeclError (α := α) l) R :=
  Run.never fun _ _ _ hm => nomatch hm

theorem reinterpretError {l l'} {R} : Run C Γ i (reinterpretError (α := α) l l') R :=
  Run.never fun _ _ _ hm => nomatch hm

theorem P.fail {e} {R} : Run C Γ i (P.fail (α := α) e) R :=
  Run.never fun _ _ _ hm => nomatch hm

theorem P.panic {R} : Run C Γ i (P.panic (α := α)) R :=
  Run.never fun _ _ _ hm => nomatch hm

theorem ifNotTolerant {m} : Run C Γ i (ifNotTolerant m) fun _ o => o = i ∧ C.tolerant = true := by
  intro s a s' hs hm
  unfold Ressa.ifNotTolerant at hm
  split at hm
  · next h => cases hm; exact ⟨i, hs, rfl, hs.cfg ▸ h⟩
  · split at hm
    · next a _ _ => exact nomatch a
    all_goals exact nomatch hm

theorem tolerateError {e} : Run C Γ i (tolerateError e) fun _ o => o = i ∧ C.tolerant = true :=
  ifNotTolerant

theorem expectPunct {p} :
    Run C Γ i (expectPunct p) fun _ o => ∃ t, i = t :: o ∧ t.item.token = .punct p := by
  refine Run.bind (nextItem.mono ?_)
  rintro _ o ⟨t, rfl, rfl⟩
  refine Run.ite (fun _ => expectedTokenError) fun h => Run.pure ⟨t, rfl, ?_⟩
  exact matchesPunct_iff.1 (by simpa using h)

theorem expectKeyword {p} :
    Run C Γ i (expectKeyword p) fun _ o => ∃ t, i = t :: o ∧ t.item.token = .keyword p := by
  refine Run.bind (nextItem.mono ?_)
  rintro _ o ⟨t, rfl, rfl⟩
  refine Run.ite (fun _ => expectedTokenError) fun h => Run.pure ⟨t, rfl, ?_⟩
  exact matchesKeyword_iff.1 (by simpa using h)

theorem atContextual {w} : Run C Γ i (atContextual w) fun b o => o = i ∧ C.textIs w i b := by
  refine Run.bind (look.mono ?_)
  rintro it o ⟨rfl, h, _⟩
  refine Run.bind (streamSlice.mono ?_)
  rintro _ _ ⟨rfl, rfl⟩
  exact Run.pure ⟨rfl, h.text⟩

theorem atAsyncFunction :
    Run C Γ i atAsyncFunction fun b o => o = i ∧ (b = true → C.textIs t!"async" i true) := by
  refine Run.bind (atContextual.mono ?_)
  rintro b _ ⟨rfl, hb⟩
  refine Run.ite ?_ ?_
  · rintro rfl
    refine Run.bind (scanPeek.mono ?_)
    rintro p _ rfl
    split
    · refine Run.bind (lookPos.mono ?_)
      rintro _ _ rfl
      refine Run.bind (positionOf.mono ?_)
      rintro _ _ rfl
      exact Run.pure ⟨rfl, fun _ => hb⟩
    · exact Run.pure ⟨rfl, by simp⟩
  · intro _
    exact Run.pure ⟨rfl, by simp⟩

theorem atImportCall : Run C Γ i atImportCall fun b o => o = i ∧
    (b = true → ∃ t r, i = t :: r ∧ t.item.token = .keyword .import ∧
      head r = .punct .openParen) := by
  have peek : ∀ l : List Tok, (peekSkipComments l).map (·.token) =
      ((l.filter fun t => !t.item.token.isComment).head?).map (·.item.token) := by
    intro l
    induction l with
    | nil => rfl
    | cons t l ih =>
      unfold peekSkipComments
      by_cases hc : t.item.token.isComment = true <;> simp [hc, ih]
  refine get.mono ?_
  rintro b o ⟨rfl, s, hs, rfl⟩
  refine ⟨rfl, fun h => ?_⟩
  simp only [Bool.and_eq_true] at h
  obtain ⟨h1, h2⟩ := h
  have hp := hs.pend
  unfold St.pend at hp
  by_cases he : s.foundEof = true
  · rw [(hs.eof he).1] at h1; simp [Token.matchesKeyword] at h1
  · rw [if_neg he] at hp
    subst hp
    refine ⟨_, _, rfl, matchesKeyword_iff.1 h1, ?_⟩
    have := peek s.rest
    split at h2
    · next it hit =>
      rw [hit] at this
      cases hl : s.rest.filter fun t => !t.item.token.isComment with
      | nil => rw [hl] at this; simp at this
      | cons t l =>
        rw [hl] at this
        simp only [Option.map_some, List.head?_cons, Option.some.injEq] at this
        simp only [head, ← this]
        exact matchesPunct_iff.1 h2
    · exact absurd h2 (by simp)

end Rn

namespace Test

theorem of_run {m : P Bool} {Q : Bool → Prop} (h : Run C Γ i m fun b o => o = i ∧ Q b) :
    Test C Γ i m (Q true) (Q false) :=
  h.mono fun _ _ ⟨h1, h2⟩ => ⟨h1, fun h => h ▸ h2, fun h => h ▸ h2⟩

theorem atContextual {w} :
    Test C Γ i (atContextual w) (C.textIs w i true) (C.textIs w i false) := of_run Rn.atContextual

theorem atAsyncFunction : Test C Γ i atAsyncFunction (C.textIs t!"async" i true) True :=
  Rn.atAsyncFunction.mono fun _ _ ⟨h1, h2⟩ => ⟨h1, h2, fun _ => trivial⟩

theorem atImportCall : Test C Γ i atImportCall
    (∃ t r, i = t :: r ∧ t.item.token = .keyword .import ∧ head r = .punct .openParen) True :=
  Rn.atImportCall.mono fun _ _ ⟨h1, h2⟩ => ⟨h1, h2, fun _ => trivial⟩

theorem of_pos {m : P Bool} (h : Run C Γ i m fun _ o => o = i) : Test C Γ i m True True :=
  h.mono fun _ _ h => ⟨h, fun _ => trivial, fun _ => trivial⟩

theorem atLexicalDecl : Test C Γ i atLexicalDecl True True :=
  of_pos (Rn.get.mono fun _ _ h => h.1)

theorem isStartOfExpr : Test C Γ i isStartOfExpr True True :=
  of_pos (Rn.get.mono fun _ _ h => h.1)

theorem atPossibleIdent : Test C Γ i atPossibleIdent (atWord i = true) True :=
  lookIs.mono fun _ _ ⟨h1, h2, _⟩ => ⟨h1, h2, fun _ => trivial⟩

theorem qualifiedPropName : Test C Γ i qualifiedPropName True True := by
  refine Run.bind (Rn.lookTok.mono ?_)
  rintro _ _ ⟨rfl, rfl⟩
  exact (Test.or Test.pure (Test.or (of_pos Rn.isLiteralTok) Test.pure)).mono
    fun _ _ ⟨h, _⟩ => ⟨h, fun _ => trivial, fun _ => trivial⟩

theorem sliceEq {it w} : Test C Γ i (do return (← streamSlice it) == w) (C.textOf it = w)
    (C.textOf it ≠ w) := by
  refine Run.bind (Rn.streamSlice.mono ?_)
  rintro _ _ ⟨rfl, rfl⟩
  exact Run.pure ⟨rfl, by simp, by simp⟩

theorem reservedLook : Test C Γ i (do Ressa.isStrictReservedTok (← lookTok))
    (C.ext.isStrictReserved (head i) = true) (C.ext.isStrictReserved (head i) = false) := by
  refine Run.bind (Rn.lookTok.mono ?_)
  rintro _ _ ⟨rfl, rfl⟩
  exact isStrictReservedTok

theorem atAssign : Test C Γ i atAssign True True := of_pos (Rn.get.mono fun _ _ h => h.1)

theorem atReturnArg : Test C Γ i atReturnArg
    (C.nl i = true → head i = .string ∨ (head i).isTemplate = true) True := by
  refine Run.test Test.readC ?_ ?_
  · rintro ⟨x, hx⟩
    refine Test.lookIs.mono ?_
    rintro b o ⟨h1, h2, _⟩
    refine ⟨h1, fun h _ => ?_, fun _ => trivial⟩
    have := h2 h
    revert this
    cases head i <;> simp [Token.isString, Token.isTemplate]
  · rintro ⟨x, hx⟩
    refine Test.lookIs.mono ?_
    rintro b o ⟨h1, _⟩
    exact ⟨h1, fun _ h => by simp_all [Env.ctx], fun _ => trivial⟩

end Test

/-- The environment after a scope. -/
macro "env_back" : tactic => `(tactic| (
  subst_vars; simp only [Ctx.env, Env.within, Env.strictly, Env.body, Env.fn, Env.yielding,
    Env.mk.injEq] at *; simp_all))

namespace Sc

theorem isolated {m : P α} {R} (h : Run C Γ i m R) : Run C Γ i (isolated m) R :=
  Run.inScope Γ (fun _ h => h) (fun _ => rfl) (fun _ _ _ h => h) (fun _ _ => rfl) h

theorem inherited {m : P α} {R} (h : Run C Γ i m R) : Run C Γ i (inherited m) R :=
  Run.inScope Γ (fun _ h => h) (fun _ => rfl) (fun _ _ _ h => h) (fun _ _ => rfl) h

theorem withAllowIn {b} {m : P α} {R} (h : Run C (Γ.within b) i m R) :
    Run C Γ i (withAllowIn b m) R :=
  Run.inScope (Γ.within b) (fun _ h => by subst h; rfl) (fun _ => rfl)
    (fun c x h h' => by env_back) (fun _ _ => rfl) h

theorem withIteration {b} {m : P α} {R} (h : Run C Γ i m R) : Run C Γ i (withIteration b m) R :=
  Run.inScope Γ (fun _ h => h) (fun _ => rfl) (fun _ _ _ h => h) (fun _ _ => rfl) h

theorem savingIteration {m : P α} {R} (h : Run C Γ i m R) : Run C Γ i (savingIteration m) R :=
  Run.inScope Γ (fun _ h => h) (fun _ => rfl) (fun _ _ _ h => h) (fun _ _ => rfl) h

theorem withSwitch {m : P α} {R} (h : Run C Γ i m R) : Run C Γ i (withSwitch m) R :=
  Run.inScope Γ (fun _ h => h) (fun _ => rfl) (fun _ _ _ h => h) (fun _ _ => rfl) h

theorem withStrict {m : P α} {R} (h : Run C Γ.strictly i m R) : Run C Γ i (withStrict m) R :=
  Run.inScope Γ.strictly (fun _ h => by subst h; rfl) (fun _ => rfl)
    (fun c x h h' => by env_back) (fun _ _ => rfl) h

theorem withDirective {b} {m : P α} {R} (h : Run C Γ i m R) : Run C Γ i (withDirective b m) R :=
  Run.inScope Γ (fun _ h => h) (fun _ => rfl)
    (fun c x h h' => by env_back) (fun _ _ => rfl) h

theorem leakDirective {b} {m : P α} {R} (h : Run C Γ i m R) : Run C Γ i (leakDirective b m) R :=
  Run.inScope Γ (fun _ h => h) (fun _ => rfl)
    (fun c x h h' => by env_back) (fun _ _ => rfl) h

theorem withAwaitYield {a y} {m : P α} {R} (h : Run C (Γ.fn a (!y && C.exact)) i m R) :
    Run C Γ i (withAwaitYield a y m) R :=
  Run.inScope (Γ.fn a (!y && C.exact)) (fun _ h => by subst h; rfl) (fun _ => rfl)
    (fun c x h h' => by env_back) (fun _ _ => rfl) h

theorem withYield {b} {m : P α} {R} (h : Run C (Γ.yielding (!b && C.exact)) i m R) :
    Run C Γ i (withYield b m) R :=
  Run.inScope (Γ.yielding (!b && C.exact)) (fun _ h => by subst h; rfl) (fun _ => rfl)
    (fun c x h h' => by env_back) (fun _ _ => rfl) h

theorem savingYield {m : P α} {R} (h : Run C Γ i m R) : Run C Γ i (savingYield m) R :=
  Run.inScope Γ (fun _ h => h) (fun _ => rfl) (fun c x h h' => by env_back) (fun _ _ => rfl) h

/-- A scope in which `yield` becomes an operator half way. -/
theorem withYieldSet {β : Type} {m : P α} {k : α → P β} {R}
    (h : Run C (Γ.yielding false) i m fun a o => Run C (Γ.yielding C.exact) o (k a) R) :
    Run C Γ i (Ressa.withYield true (m >>= fun a => Ressa.setYield false >>= fun _ => k a)) R := by
  intro s a s'' hs hm
  unfold Ressa.withYield Ressa.inScope at hm
  obtain ⟨c, _, hc, hm⟩ := bind_eq_ok.1 hm
  cases hc
  obtain ⟨_, _, hc, hm⟩ := bind_eq_ok.1 hm
  cases hc
  obtain ⟨a', s', hm', hm⟩ := bind_eq_ok.1 hm
  obtain ⟨_, _, hc, hm⟩ := bind_eq_ok.1 hm
  cases hc
  cases hm
  obtain ⟨x, s1, h1, hm'⟩ := bind_eq_ok.1 hm'
  obtain ⟨_, s2, hc, hm'⟩ := bind_eq_ok.1 hm'
  cases hc
  have he := hs.env
  have a1 : At C (Γ.yielding false) i { s with ctx := { s.ctx with allowYield := true } } :=
    ⟨hs.cfg, by rw [← he]; simp [Ctx.env, Env.yielding], hs.pend, hs.eof, hs.comments, hs.get⟩
  obtain ⟨j, hj, hk⟩ := h _ _ _ a1 h1
  have hje := hj.env
  have a2 : At C (Γ.yielding C.exact) j { s1 with ctx := { s1.ctx with allowYield := false } } :=
    ⟨hj.cfg, by
      clear hk hm' h1 a1
      simp only [Ctx.env, Env.yielding, Env.mk.injEq] at hje ⊢; simp_all, hj.pend, hj.eof,
      hj.comments, hj.get⟩
  obtain ⟨o, ho, hR⟩ := hk _ _ _ a2 hm'
  have hoe := ho.env
  refine ⟨o, ⟨ho.cfg, ?_, ho.pend, ho.eof, ho.comments, ho.get⟩, hR⟩
  clear hk hm' h1 a1 a2 hR hj ho hs hje
  env_back

theorem withFunctionBody {m : P α} {R} (h : Run C Γ.body i m R) :
    Run C Γ i (withFunctionBody m) R :=
  Run.inScope Γ.body (fun _ h => by subst h; rfl) (fun _ => rfl)
    (fun c x h h' => by env_back) (fun _ _ => rfl) h

theorem inScope {m : P α} {R} (h : Run C Γ i m R) : Run C Γ i (inScope id inheritCover m) R :=
  Run.inScope Γ (fun _ h => h) (fun _ => rfl) (fun _ _ _ h => h) (fun _ _ => rfl) h

theorem withLabel {l} {m : P α} {R}
    (h : '$' :: l ∉ Γ.labels → Run C (Γ.label l) i m R) : Run C Γ i (withLabel l m) R := by
  refine Run.test Test.readC (fun _ => Rn.redeclError) ?_
  rintro ⟨x, hx⟩
  have hx' : '$' :: l ∉ Γ.labels := by simpa [Env.ctx] using hx
  intro s a s'' hs hm
  obtain ⟨_, _, hc, hm⟩ := bind_eq_ok.1 hm
  cases hc
  obtain ⟨a', s', hm', hm⟩ := bind_eq_ok.1 hm
  obtain ⟨_, _, hc, hm⟩ := bind_eq_ok.1 hm
  cases hc
  cases hm
  have hat : At C (Γ.label l) i { s with ctx := { s.ctx with labelSet := ('$' :: l) :: s.ctx.labelSet } } := by
    refine ⟨hs.cfg, ?_, hs.pend, hs.eof, hs.comments, hs.get⟩
    have := hs.env
    subst this
    rfl
  obtain ⟨o, ho, hR⟩ := h hx' _ _ _ hat hm'
  have hat' : ∀ Γ', Ctx.env { s'.ctx with labelSet := s'.ctx.labelSet.filter (fun x => x != '$' :: l) } C.exact = Γ' →
      At C Γ' o { s' with ctx := { s'.ctx with labelSet := s'.ctx.labelSet.filter (fun x => x != '$' :: l) } } :=
    fun Γ' h => ⟨ho.cfg, h, ho.pend, ho.eof, ho.comments, ho.get⟩
  refine ⟨o, hat' _ ?_, hR⟩
  have he := ho.env
  have hf : (('$' :: l) :: Γ.labels).filter (fun x => x != '$' :: l) = Γ.labels := by
    simp only [List.filter_cons, bne_self_eq_false, Bool.false_eq_true, if_false]
    refine List.filter_eq_self.2 fun x hx => ?_
    simp only [bne_iff_ne, ne_eq]
    rintro rfl
    exact hx' hx
  have hl : s'.ctx.labelSet = ('$' :: l) :: Γ.labels := congrArg Env.labels he
  have e1 := congrArg Env.strict he
  have e2 := congrArg Env.await he
  have e3 := congrArg Env.inFn he
  have e4 := congrArg Env.allowIn he
  have e5 := congrArg Env.gen he
  cases Γ
  simp only [Ctx.env, Env.label] at e1 e2 e3 e4 e5 hl hf ⊢
  rw [hl, hf, e1, e2, e3, e4, e5]

end Sc

namespace Rn
theorem notTarget : Run C Γ i notTarget fun _ o => o = i := Run.modC (fun _ => rfl) (fun _ => rfl) rfl
theorem setYield {b} (h : C.exact = false) : Run C Γ i (setYield b) fun _ o => o = i :=
  Run.modC (fun _ => by simp [Ctx.env, h]) (fun _ => rfl) rfl
end Rn

end Ressa
