import Verif.Props.Context
import Verif.Props.Positions
import Verif.Proof.SoundTop
import Verif.Proof.DemoOk
import Verif.Spec.Core

/-!
# Runs forward

`Stand C Γ f i s`: the parser stands in front of the items `i` in the environment `Γ`, on the output
of a scanner; `f` tells whether the expression being read is known to be an assignment target and
known to be a binding element.  Where only LF ends lines, the tracked
positions are exact.  `Exec C Γ f i m a f' o`: from there `m` succeeds with `a`, and then
the parser stands in front of `o` in the same environment.

The other fields of the context are left open: no successful run described here depends on them.
-/

namespace Ressa

open Gr

/-- The line on which an item starts. -/
def Gr.Cfg.lineAt (C : Cfg) (t : Tok) : Nat :=
  lineOf ((takeB C.stream t.item.span.start).getD [])

/-- See above. -/
structure Stand (C : Cfg) (Γ : Env) (f : Flags) (i : List Tok) (s : St) : Prop where
  at_ : At { C with exact := false } (Γ.yielding false) i s
  gen : Γ.gen = true → s.ctx.allowYield = false
  flags : f.Le s.ctx.flags
  ok : ∃ all, ScannerOk s.stream all ∧ Reading s.stream all s
  pos : LfOnly s.stream → Tracked s.stream s

/-- See above. -/
def Exec {α : Type} (C : Cfg) (Γ : Env) (f : Flags) (i : List Tok) (m : P α) (a : α) (f' : Flags)
    (o : List Tok) : Prop :=
  ∀ s, Stand C Γ f i s →
    ∃ s', m s = .ok a s' ∧ Stand C Γ f' o s' ∧ mu s' + i.length ≤ mu s + o.length

theorem next_flags {span ts s r} (h : Next span ts s r) :
    r.Sat (fun _ s' => s'.ctx.flags = s.ctx.flags ∧ s'.ctx.allowYield = s.ctx.allowYield)
      (fun _ _ => True) True := by
  induction h with
  | eof => exact ⟨rfl, rfl⟩
  | after => trivial
  | missing => trivial
  | bad => trivial
  | badComment => trivial
  | @comment _ _ _ _ _ _ _ _ r _ _ _ _ ih =>
    cases r with
    | ok a s' => exact ih
    | err a s' => trivial
    | panic => trivial
    | diverge => exact ih
  | token => exact ⟨rfl, rfl⟩

variable {C : Cfg} {Γ : Env} {f f' g f₁ g₁ : Flags} {i j o : List Tok} {α β : Type}

/-- Reading an item. -/
theorem Stand.next {t s} (h : Stand C Γ f (t :: o) s) :
    ∃ s', nextItem s = .ok t.item s' ∧ Stand C Γ f o s' ∧ mu s' + 1 ≤ mu s := by
  obtain ⟨hat, hg, hc, ⟨all, hok, hr⟩, hpos⟩ := h
  have H := (safeSys_ok hok).next hr
  cases hn : nextItem s with
  | ok a s' =>
    obtain ⟨t', o', h1, h2, h3⟩ := hat.next hn
    cases h1
    subst h2
    have hcore := next_flags (nextItem_spec s)
    have hmu := nextItem_mu s
    rw [hn] at hcore hmu H
    have hst : s'.stream = s.stream := by
      have := congrArg Cfg.stream (h3.cfg.trans hat.cfg.symm); exact this
    refine ⟨s', rfl, ⟨h3, fun h => hcore.2.trans (hg h), hcore.1 ▸ hc, ⟨all, hst ▸ hok, ?_⟩, ?_⟩, hmu⟩
    · rw [hst]
      exact H.1
    · rw [hst]
      intro hlf
      have H' := (posSys_ok (hlf.breaks all) hok).next ⟨hr, hpos hlf⟩
      rw [hn] at H'
      exact H'.1.2
  | err e s' =>
    exfalso
    have hp := hat.pend
    have hs := hr.look
    obtain ⟨h1, hl, pre, u, h2, h3⟩ := hr
    obtain ⟨b1, b2, b3⟩ := hok.mem_span (t := u) (by simp [h2])
    have := (nextItem_spec s).safe hok (pre ++ [u]) rfl hl (by simpa using h2)
      (h3 ▸ b1) (h3 ▸ b2) (h3 ▸ b3) (h3 ▸ hok.after h2) (fun _ => ⟨pre, u, rfl, h3⟩)
    rw [hn] at this
    simp [St.pend, this.2.2.2] at hp
  | panic => rw [hn] at H; exact H.elim
  | diverge => rw [hn] at H; exact H.elim

theorem Stand.nl {s} (h : Stand C Γ f i s) : s.ctx.hasLineTerm = C.nl i := h.at_.nl

theorem Stand.item {t s} (h : Stand C Γ f (t :: o) s) : s.look = t.item := h.at_.item

theorem Stand.text {t s} (h : Stand C Γ f (t :: o) s) : ItemOk C.stream t.item := by
  obtain ⟨all, hok, hr⟩ := h.ok
  obtain ⟨pre, u, h1, h2⟩ := hr.look
  have := hok.items u (by simp [h1])
  rw [← h2, h.item] at this
  have hc : s.stream = C.stream := congrArg Cfg.stream h.at_.cfg
  rwa [hc] at this

theorem ItemOk.text {t : Tok} (h : ItemOk C.stream t.item) :
    sliceB C.stream t.item.span.start t.item.span.stop = some (C.text t) := by
  obtain ⟨raw, h, -⟩ := h
  simp [Cfg.text, Cfg.textOf, h]

theorem Stand.ctx {s} (h : Stand C Γ f i s) : s.ctx = Γ.ctx (C.nl i) s.ctx :=
  Ctx.env_ctx (Γ := Γ.yielding false) h.at_.env h.at_.nl

theorem Stand.weaken {s} (h : Stand C Γ f i s) (hg : g.Le f) : Stand C Γ g i s :=
  ⟨h.at_, h.gen, hg.trans h.flags, h.ok, h.pos⟩

namespace Exec

theorem pure {a : α} : Exec C Γ f i (pure a) a f i := fun s h => ⟨s, rfl, h, Nat.le_refl _⟩

theorem bind {m : P α} {k : α → P β} {a b} (h : Exec C Γ f i m a g j)
    (hk : Exec C Γ g j (k a) b f' o) : Exec C Γ f i (m >>= k) b f' o := by
  intro s hs
  obtain ⟨s1, h1, h2, h3⟩ := h s hs
  obtain ⟨s2, h4, h5, h6⟩ := hk s1 h2
  refine ⟨s2, by rw [bind_def, h1]; exact h4, h5, by omega⟩

/-- Reading something off the state. -/
theorem get {φ : St → α} {k : α → P β} {b} (a : α) (h : ∀ s, Stand C Γ f i s → φ s = a)
    (hk : Exec C Γ f i (k a) b f' o) : Exec C Γ f i (P.get φ >>= k) b f' o := by
  intro s hs
  obtain ⟨s', h1, h2⟩ := hk s hs
  exact ⟨s', by rw [get_bind, h s hs]; exact h1, h2⟩

/-- Reading something whose value does not matter. -/
theorem getAny {φ : St → α} {k : α → P β} {b}
    (hk : ∀ a, Exec C Γ f i (k a) b f' o) : Exec C Γ f i (P.get φ >>= k) b f' o := by
  intro s hs
  obtain ⟨s', h1, h2⟩ := hk (φ s) s hs
  exact ⟨s', by rw [get_bind]; exact h1, h2⟩

theorem lookIs {φ : Token → Bool} {k : Bool → P β} {b}
    (hk : Exec C Γ f i (k (φ (head i))) b f' o) : Exec C Γ f i (lookIs φ >>= k) b f' o :=
  get _ (fun _ hs => congrArg φ hs.at_.head) hk

theorem lookTok {k : Token → P β} {b}
    (hk : Exec C Γ f i (k (head i)) b f' o) : Exec C Γ f i (lookTok >>= k) b f' o :=
  get _ (fun _ hs => hs.at_.head) hk

theorem look {t} {k : Item → P β} {b}
    (hk : Exec C Γ f (t :: i) (k t.item) b f' o) : Exec C Γ f (t :: i) (look >>= k) b f' o :=
  get _ (fun _ hs => hs.item) hk

theorem lookPos {k : Position → P β} {b}
    (hk : ∀ p, Exec C Γ f i (k p) b f' o) : Exec C Γ f i (lookPos >>= k) b f' o := getAny hk

theorem lookPosLf {t} {k : Position → P β} {b} (hlf : LfOnly C.stream)
    (hk : ∀ n, Exec C Γ f (t :: i) (k ⟨C.lineAt t, n⟩) b f' o) :
    Exec C Γ f (t :: i) (Ressa.lookPos >>= k) b f' o := by
  intro s hs
  have hc : s.stream = C.stream := congrArg Cfg.stream hs.at_.cfg
  obtain ⟨p, u, h1, h2, h3⟩ := (hs.pos (hc ▸ hlf)).look
  rw [hs.item] at h2
  obtain ⟨s', h4, h5⟩ := hk (columnOf p) s hs
  refine ⟨s', ?_, h5⟩
  have : C.lineAt t = lineOf p := by
    rw [Cfg.lineAt, takeB_iff.2 ⟨u, hc ▸ h1, h2⟩]
    rfl
  rw [this, ← h3] at h4
  exact h4

theorem readModule {k : Bool → P β} {b}
    (hk : Exec C Γ f i (k C.isModule) b f' o) : Exec C Γ f i (readModule >>= k) b f' o :=
  get _ (fun _ hs => congrArg Cfg.isModule hs.at_.cfg) hk

theorem readC {φ : Ctx → α} {k : α → P β} {b} (a : α) (h : ∀ x, φ (Γ.ctx (C.nl i) x) = a)
    (hk : Exec C Γ f i (k a) b f' o) : Exec C Γ f i (readC φ >>= k) b f' o :=
  get a (fun s hs => by rw [hs.ctx]; exact h _) hk

theorem readTarget {k : Bool → P β} {b} (h : f.1 = true) (hk : Exec C Γ f i (k false) b f' o) :
    Exec C Γ f i (Ressa.readC (fun c => !c.isAssignmentTarget) >>= k) b f' o :=
  get _ (fun s hs => by have := hs.flags.1 h; simp only [Ctx.flags] at this; simp [this]) hk

theorem readBinding {k : Bool → P β} {b} (h : f.2 = true) (hk : Exec C Γ f i (k false) b f' o) :
    Exec C Γ f i (Ressa.readC (fun c => !c.isBindingElement) >>= k) b f' o :=
  get _ (fun s hs => by have := hs.flags.2 h; simp only [Ctx.flags] at this; simp [this]) hk

theorem readYield {k : Bool → P β} {b} (h : Γ.gen = true) (hk : Exec C Γ f i (k true) b f' o) :
    Exec C Γ f i (Ressa.readC (fun c => !c.allowYield) >>= k) b f' o :=
  get _ (fun s hs => by have := hs.gen h; simp [this]) hk

/-- From better flags to worse ones. -/
theorem weaken {m : P α} {a} (h : Exec C Γ f i m a g o) (h1 : f.Le f₁) (h2 : g₁.Le g) :
    Exec C Γ f₁ i m a g₁ o := by
  intro s hs
  obtain ⟨s', h3, h4, h5⟩ := h s (hs.weaken h1)
  exact ⟨s', h3, h4.weaken h2, h5⟩

theorem strictReserved {t} {k : Bool → P β} {b}
    (hk : Exec C Γ f i (k (C.ext.isStrictReserved t)) b f' o) :
    Exec C Γ f i (isStrictReservedTok t >>= k) b f' o :=
  get _ (fun s hs => congrArg (fun C : Cfg => C.ext.isStrictReserved t) hs.at_.cfg) hk

/-- The text of the next item. -/
theorem here {t} {m : P α} {a} (h : ItemOk C.stream t.item → Exec C Γ f (t :: i) m a f' o) :
    Exec C Γ f (t :: i) m a f' o := fun s hs => h hs.text s hs

theorem streamSlice {t} {k : Txt → P β} {b} (ht : ItemOk C.stream t.item)
    (hk : Exec C Γ f i (k (C.text t)) b f' o) :
    Exec C Γ f i (streamSlice t.item >>= k) b f' o := by
  intro s hs
  obtain ⟨s', h1, h2⟩ := hk s hs
  refine ⟨s', ?_, h2⟩
  have hc : s.stream = C.stream := congrArg Cfg.stream hs.at_.cfg
  rw [bind_def, Ressa.streamSlice, hc, ht.text]
  exact h1

theorem getString {t} {k : Txt → P β} {b} (ht : ItemOk C.stream t.item)
    (hk : Exec C Γ f i (k (C.text t)) b f' o) :
    Exec C Γ f i (getString t.item >>= k) b f' o := by
  intro s hs
  obtain ⟨s', h1, h2⟩ := hk s hs
  refine ⟨s', ?_, h2⟩
  have hc : s.stream = C.stream := congrArg Cfg.stream hs.at_.cfg
  rw [bind_def, Ressa.getString, hc, ht.text]
  exact h1

theorem stringForOrEmpty {t : Tok} {k : Txt → P β} {b}
    (hk : Exec C Γ f i (k (C.text t)) b f' o) :
    Exec C Γ f i (stringForOrEmpty t.item >>= k) b f' o :=
  get _ (fun s hs => by
    have hc : s.stream = C.stream := congrArg Cfg.stream hs.at_.cfg
    rw [hc]; rfl) hk

theorem nextItem {t} {k : Item → P β} {b}
    (hk : Exec C Γ f i (k t.item) b f' o) : Exec C Γ f (t :: i) (nextItem >>= k) b f' o := by
  intro s hs
  obtain ⟨s1, h1, h2, h3⟩ := hs.next
  obtain ⟨s', h4, h5, h6⟩ := hk s1 h2
  refine ⟨s', by rw [bind_def, h1]; exact h4, h5, ?_⟩
  simp only [List.length_cons]
  omega

theorem expectPunct {t p} {k : Unit → P β} {b} (ht : t.item.token = .punct p)
    (hk : Exec C Γ f i (k ()) b f' o) : Exec C Γ f (t :: i) (expectPunct p >>= k) b f' o := by
  refine bind (nextItem ?_) hk
  rw [ht]
  simp only [punct_matchesPunct, beq_self_eq_true, Bool.not_true, Bool.false_eq_true, if_false]
  exact pure

theorem expectKeyword {t p} {k : Unit → P β} {b} (ht : t.item.token = .keyword p)
    (hk : Exec C Γ f i (k ()) b f' o) : Exec C Γ f (t :: i) (expectKeyword p >>= k) b f' o := by
  refine bind (nextItem ?_) hk
  rw [ht]
  simp only [keyword_matchesKeyword, beq_self_eq_true, Bool.not_true, Bool.false_eq_true, if_false]
  exact pure

theorem bindAssoc {γ : Type} {m : P α} {k : α → P β} {l : β → P γ} {b}
    (h : Exec C Γ f i (m >>= fun a => k a >>= l) b f' o) :
    Exec C Γ f i (m >>= k >>= l) b f' o := by
  intro s hs
  obtain ⟨s', h1, h2⟩ := h s hs
  refine ⟨s', ?_, h2⟩
  rw [← h1]
  simp only [bind_def]
  cases m s <;> rfl

theorem pureBind {a : α} {k : α → P β} {b} (h : Exec C Γ f i (k a) b f' o) :
    Exec C Γ f i (Pure.pure a >>= k) b f' o := h

theorem atContextual {t w} {k : Bool → P β} {b}
    (hk : Exec C Γ f (t :: i) (k (C.text t == w)) b f' o) :
    Exec C Γ f (t :: i) (atContextual w >>= k) b f' o := by
  refine here fun ht => ?_
  unfold Ressa.atContextual
  exact bindAssoc (look (bindAssoc (streamSlice ht (pureBind hk))))

theorem skipItem {t} {k : Unit → P β} {b}
    (hk : Exec C Γ f i (k ()) b f' o) : Exec C Γ f (t :: i) (skipItem >>= k) b f' o := by
  unfold Ressa.skipItem
  exact bindAssoc (nextItem (pureBind hk))

/-- The last step. -/
theorem last {m : P α} {a} (h : Exec C Γ f i (m >>= fun a => Pure.pure a) a f' o) :
    Exec C Γ f i m a f' o := by
  intro s hs
  obtain ⟨s', h1, h2⟩ := h s hs
  refine ⟨s', ?_, h2⟩
  rw [← h1, bind_def]
  cases m s <;> rfl

theorem _root_.Ressa.Ctx.env_yielding (c : Ctx) : c.env.yielding false = c.env := by
  simp [Ctx.env, Env.yielding]

/-- Changing the flags. -/
theorem modC {φ : Ctx → Ctx} {k : Unit → P β} {b} (g : Flags)
    (h1 : ∀ c : Ctx, (φ c).env.yielding false = c.env.yielding false)
    (h2 : ∀ c : Ctx, (φ c).hasLineTerm = c.hasLineTerm)
    (h3 : ∀ x : Ctx, f.Le x.flags → g.Le (φ x).flags)
    (h4 : ∀ x : Ctx, x.allowYield = false → (φ x).allowYield = false)
    (hk : Exec C Γ g i (k ()) b f' o) : Exec C Γ f i (P.modC φ >>= k) b f' o := by
  intro s hs
  have he := h1 s.ctx
  rw [Ctx.env_yielding, Ctx.env_yielding] at he
  replace he := he.trans hs.at_.env
  have hat : Stand C Γ g i { s with ctx := φ s.ctx } :=
    ⟨⟨hs.at_.cfg, he, by rw [← hs.at_.pend]; simp only [St.pend, h2], fun he => by
      have := hs.at_.eof he; simpa only [h2] using this, hs.at_.comments, nofun⟩,
      fun h => h4 _ (hs.gen h), h3 s.ctx hs.flags,
      (let ⟨all, ha, hr⟩ := hs.ok; ⟨all, ha, hr.stream, hr.lines, hr.look⟩),
      fun h => ⟨(hs.pos h).look, (hs.pos h).cur⟩⟩
  obtain ⟨s', h4, h5, h6⟩ := hk _ hat
  exact ⟨s', h4, h5, h6⟩

theorem notTarget {k : Unit → P β} {b}
    (hk : Exec C Γ (false, false) i (k ()) b f' o) : Exec C Γ f i (notTarget >>= k) b f' o :=
  modC _ (fun _ => rfl) (fun _ => rfl) (fun _ _ => Flags.bot_le) (fun _ h => h) hk

/-- A scope. -/
theorem inScope {set restore} {m : P α} {a} (Γ' : Env) {f₁ f₂ : Flags}
    (h1 : ∀ x, (set (Γ.ctx (C.nl i) x)).env.yielding false = Γ'.yielding false)
    (h1' : ∀ x : Ctx, f.Le x.flags → f₁.Le (set x).flags)
    (h2 : ∀ c : Ctx, (set c).hasLineTerm = c.hasLineTerm)
    (h3 : ∀ x y, (restore (Γ.ctx (C.nl i) x) (Γ'.ctx (C.nl o) y)).env.yielding false =
      Γ.yielding false)
    (h3' : ∀ x y : Ctx, f.Le x.flags → f₂.Le y.flags → f'.Le (restore x y).flags)
    (h4 : ∀ c x : Ctx, (restore c x).hasLineTerm = x.hasLineTerm)
    (y1 : ∀ x : Ctx, (Γ.gen = true → x.allowYield = false) → Γ'.gen = true →
      (set x).allowYield = false)
    (y2 : ∀ x y : Ctx, (Γ.gen = true → x.allowYield = false) →
      (Γ'.gen = true → y.allowYield = false) → Γ.gen = true → (restore x y).allowYield = false)
    (h : Exec C Γ' f₁ i m a f₂ o) : Exec C Γ f i (inScope set restore m) a f' o := by
  intro s hs
  obtain ⟨all, ha, hr⟩ := hs.ok
  have e1 := h1 s.ctx
  rw [← hs.ctx, Ctx.env_yielding] at e1
  have hat : Stand C Γ' f₁ i { s with ctx := set s.ctx } :=
    ⟨⟨hs.at_.cfg, e1, by rw [← hs.at_.pend]; simp only [St.pend, h2], fun he => by
      have := hs.at_.eof he; simpa only [h2] using this, hs.at_.comments, nofun⟩, y1 _ hs.gen, h1' _ hs.flags,
      ⟨all, ha, hr.stream, hr.lines, hr.look⟩, fun h => ⟨(hs.pos h).look, (hs.pos h).cur⟩⟩
  obtain ⟨s', h5, h6, h7⟩ := h _ hat
  obtain ⟨all', ha', hr'⟩ := h6.ok
  have e2 := h3 s.ctx s'.ctx
  rw [← hs.ctx, ← h6.ctx, Ctx.env_yielding] at e2
  refine ⟨{ s' with ctx := restore s.ctx s'.ctx }, ?_, ?_, h7⟩
  · simp only [Ressa.inScope, bind_def, Ressa.readC, P.get, P.modC, h5]
    rfl
  · exact ⟨⟨h6.at_.cfg, e2, by rw [← h6.at_.pend]; simp only [St.pend, h4], fun he => by
      have := h6.at_.eof he; simpa only [h4] using this, h6.at_.comments, nofun⟩,
      y2 _ _ hs.gen h6.gen, h3' _ _ hs.flags h6.flags, ⟨all', ha', hr'.stream, hr'.lines, hr'.look⟩,
      fun h => ⟨(h6.pos h).look, (h6.pos h).cur⟩⟩

theorem isolated {m : P α} {a} (h : Exec C Γ (true, true) i m a g o) :
    Exec C Γ f i (isolated m) a f o :=
  inScope Γ (fun _ => rfl) (fun _ _ => Flags.Le.refl) (fun _ => rfl) (fun _ _ => rfl)
    (fun _ _ h _ => h) (fun _ _ => rfl)
    (fun _ h => h) (fun _ _ _ h => h) h

theorem inherited {m : P α} {a} (h : Exec C Γ (true, true) i m a g o) :
    Exec C Γ f i (inherited m) a (g.and f) o :=
  inScope Γ (fun _ => rfl) (fun _ _ => Flags.Le.refl) (fun _ => rfl) (fun _ _ => rfl)
    (fun _ _ h h' => h'.and h) (fun _ _ => rfl)
    (fun _ h => h) (fun _ _ _ h => h) h

/-- The value of a property (src/lib.rs:2604-2606). -/
theorem continued {m : P α} {a} (h : Exec C Γ f i m a g o) :
    Exec C Γ f i (Ressa.inScope id inheritCover m) a (g.and f) o :=
  inScope Γ (fun _ => rfl) (fun _ h => h) (fun _ => rfl) (fun _ _ => rfl)
    (fun _ _ h h' => h'.and h) (fun _ _ => rfl)
    (fun _ h => h) (fun _ _ _ h => h) h

theorem withAllowIn {m : P α} {a b} (h : Exec C (Γ.within b) f i m a g o) :
    Exec C Γ f i (withAllowIn b m) a g o :=
  inScope (Γ.within b) (fun _ => rfl) (fun _ h => h) (fun _ => rfl) (fun _ _ => rfl)
    (fun _ _ _ h => h) (fun _ _ => rfl)
    (fun _ h => h) (fun _ _ _ h => h) h

/-! Loops -/

theorem loopExit {σ : Type} {test : σ → P (Option α)} {body : σ → P (σ ⊕ α)} {x : σ} {a}
    (h : Exec C Γ f i (test x) (some a) f' o) : Exec C Γ f i (loopP test body x) a f' o := by
  intro s hs
  obtain ⟨s', h1, h2, h3⟩ := h s hs
  refine ⟨s', ?_, h2, h3⟩
  simp only [loopP, loopN, bind_def, h1]
  rfl

theorem loopBreak {σ : Type} {test : σ → P (Option α)} {body : σ → P (σ ⊕ α)} {x : σ} {a}
    (ht : Exec C Γ f i (test x) none f i) (hb : Exec C Γ f i (body x) (.inr a) f' o) :
    Exec C Γ f i (loopP test body x) a f' o := by
  intro s hs
  obtain ⟨s1, h1, h2, h3⟩ := ht s hs
  obtain ⟨s2, h4, h5, h6⟩ := hb s1 h2
  refine ⟨s2, ?_, h5, by omega⟩
  simp only [loopP, loopN, bind_def, h1, h4]
  rfl

theorem loopStep {σ : Type} {test : σ → P (Option α)} {body : σ → P (σ ⊕ α)} {x x' : σ} {a}
    (ht : Exec C Γ f i (test x) none f i) (hb : Exec C Γ f i (body x) (.inl x') g j)
    (hl : j.length < i.length) (h : Exec C Γ g j (loopP test body x') a f' o) :
    Exec C Γ f i (loopP test body x) a f' o := by
  intro s hs
  obtain ⟨s1, h1, h2, h3⟩ := ht s hs
  obtain ⟨s2, h4, h5, h6⟩ := hb s1 h2
  obtain ⟨s3, h7, h8, h9⟩ := h s2 h5
  refine ⟨s3, ?_, h8, by omega⟩
  have h10 : Ressa.loopN (mu s) test body x' s2 = .ok a s3 := by
    have e : mu s = mu s2 + 1 + (mu s - (mu s2 + 1)) := by omega
    rw [e, loopN_mono] <;> rw [show Ressa.loopN (mu s2 + 1) test body x' s2 = _ from h7]
    exact nofun
  simp only [loopP, loopN, bind_def, h1, h4]
  exact h10

end Exec

theorem Stand.of_build {L : Lexer} {b : Builder} {s : St} (hok : ScannerOk b.js (L.scan b.js))
    (h : b.build L = .ok () s) : Stand (cfgOf L b) Env.top (false, false) (visible L b) s := by
  have hat := build_at hok h
  obtain ⟨s', h', hr⟩ := build_reading hok
  rw [h] at h'
  cases h'
  have hst := hr.stream
  refine ⟨hat, nofun, Flags.bot_le, ⟨L.scan b.js, ?_, ?_⟩, ?_⟩
  · rw [hst]; exact hok
  · rw [hst]; exact hr
  · rw [hst]; exact fun hlf => (reachable_tracked (hlf.breaks _) hok ⟨s, h, .refl⟩).2

/-! ## Concrete inputs -/

namespace Demo

/-- A piece whose text has the right shape. -/
def plain (p : Piece) : Bool :=
  match p.token with
  | .eof | .template _ | .regex => false
  | .comment _ => p.text.contains '/'
  | _ => true

theorem plain_ok {p : Piece} (h : plain p = true) : PieceOk p := by
  unfold plain at h
  unfold PieceOk ShapeOk
  cases ht : p.token <;> rw [ht] at h <;> first
    | cases h; done
    | exact ⟨nofun, trivial⟩
    | exact ⟨nofun, '/', by simpa using h, by decide, by decide⟩

/-- What is fixed for the pieces. -/
def cfg (ps : List Piece) (tolerant := false) (isModule := false) : Cfg :=
  cfgOf (lexer ps) (builder ps tolerant isModule)

/-- The parser for the given pieces stands in front of all of them. -/
theorem stand {ps : List Piece} {tolerant isModule : Bool} (h : ps.all plain = true) :
    Stand (cfg ps tolerant isModule) Env.top (false, false)
      (visible (lexer ps) (builder ps tolerant isModule)) (state ps tolerant isModule) := by
  have hok := scannerOk fun p hp => plain_ok (List.all_eq_true.1 h p hp)
  obtain ⟨s, hs, -⟩ := build_reading (b := builder ps tolerant isModule) hok
  have := Stand.of_build (b := builder ps tolerant isModule) hok hs
  have hst : state ps tolerant isModule = s := by unfold state start; rw [hs]
  rw [hst]
  exact this

end Demo

end Ressa
