import Verif.Proof.Safe

/-!
# The nesting bound is invisible

`recN n` cuts the recursion off at `n`.  Whatever a cut-off parser returns without diverging, the
parser with a larger bound returns too; and `full` does not diverge.  So `full` satisfies the
recursion equations of the source: `full_eq : full = step full`.
-/

namespace Ressa

/-- `m'` agrees with `m` wherever `m` does not diverge. -/
def fuelJ : Judgement where
  good _ := True
  rel _ _ Q m m' := ∀ s, m s ≠ .diverge → m' s = m s ∧ ∀ a s', m s = .ok a s' → Q a

namespace FuelJ

theorem same {α c d} {Q : α → Prop} {m : P α} (h : ∀ a, Q a) : fuelJ.rel c d Q m m :=
  fun _ _ => ⟨rfl, fun a _ _ => h a⟩

theorem error {α c d} {Q : α → Prop} {m : P α} (h : ∀ s a s', m s ≠ .ok a s') :
    fuelJ.rel c d Q m m :=
  fun s _ => ⟨rfl, fun a s' e => absurd e (h s a s')⟩

theorem bind {α β c d c' d' c'' d''} {Q : α → Prop} {Q' : β → Prop} {m m' : P α} {f f' : α → P β}
    (h : fuelJ.rel c d Q m m') (k : ∀ a, Q a → fuelJ.rel c' d' Q' (f a) (f' a)) :
    fuelJ.rel c'' d'' Q' (m >>= f) (m' >>= f') := by
  intro s hs
  have hm : m s ≠ .diverge := fun e => hs (by rw [bind_def, e])
  obtain ⟨e, hq⟩ := h s hm
  rw [bind_def, bind_def, e]
  cases hm : m s with
  | ok a s' =>
    have hf : f a s' ≠ .diverge := fun e => hs (by rw [bind_def, hm]; exact e)
    exact k a (hq a s' hm) s' hf
  | err e s' => exact ⟨rfl, fun _ _ h => nomatch h⟩
  | panic => exact ⟨rfl, fun _ _ h => nomatch h⟩
  | diverge => exact absurd hm ‹_›

theorem loopN {σ α c c' c'' d d' d''} {Q : α → Prop} {test test' : σ → P (Option α)} {body body'}
    (ht : ∀ x, fuelJ.rel c d (fun o => ∀ a, o = some a → Q a) (test x) (test' x))
    (hb : ∀ x, fuelJ.rel c' d' (fun r => ∀ a, r = .inr a → Q a) (body x) (body' x)) :
    ∀ n x, fuelJ.rel c'' d'' Q (Ressa.loopN n test body x) (Ressa.loopN n test' body' x)
  | 0, x => fun s h => absurd rfl h
  | n + 1, x => by
    unfold Ressa.loopN
    refine bind (c' := false) (d' := false) (ht x) fun o ho => ?_
    cases o with
    | some a => exact fun s _ => ⟨rfl, by rintro _ _ ⟨⟩; exact ho a rfl⟩
    | none =>
      refine bind (c' := false) (d' := false) (hb x) fun r hr => ?_
      cases r with
      | inl x' => exact loopN ht hb n x'
      | inr a => exact fun s _ => ⟨rfl, by rintro _ _ ⟨⟩; exact hr a rfl⟩

instance base : Base fuelJ where
  weakenD h := h
  weakenQ hq h s hs := ⟨(h s hs).1, fun a s' e => hq a ((h s hs).2 a s' e)⟩
  pure h s _ := ⟨rfl, by rintro _ _ ⟨⟩; exact h⟩
  bindT h k := bind h k
  bindF h k := bind h k
  nextItem := same fun _ => trivial
  look := same fun _ => trivial
  readC _ := same fun _ => trivial
  lookTok := same fun _ => trivial
  lookIs _ := same fun _ => trivial
  lookPos := same fun _ => trivial
  isRestrictedTok _ := same fun _ => trivial
  isStrictReservedTok _ := same fun _ => trivial
  isLiteralTok _ := same fun _ => trivial
  atImportCall := same fun _ => trivial
  atLexicalDecl := same fun _ => trivial
  atAsyncFunction := same fun _ => trivial
  streamSlice _ := same fun _ => trivial
  getString _ := same fun _ => trivial
  stringForOrEmpty _ := same fun _ => trivial
  expectedTokenError e _ := error fun s a s' => by
    unfold Ressa.expectedTokenError; split <;> simp
  unexpectedTokenError e _ := error fun s a s' => by
    unfold Ressa.unexpectedTokenError; split <;> simp
  expectedLook e := error fun s a s' => by
    unfold Ressa.expectedLook Ressa.expectedTokenError; split <;> simp
  unexpectedLook e := error fun s a s' => by
    unfold Ressa.unexpectedLook Ressa.unexpectedTokenError; split <;> simp
  reinterpretError := error fun s a s' => by simp [Ressa.reinterpretError]
  fail _ := error fun s a s' => by simp [P.fail]
  modC _ := same fun _ => trivial
  inScope _ h := bind (c := false) (d := false) (c' := false) (d' := false) (Q := Any)
    (same fun _ => trivial) fun _ _ =>
      bind (c := false) (d := false) (c' := false) (d' := false) (Q := Any)
        (same fun _ => trivial) fun _ _ =>
        bind (c' := false) (d' := false) h fun a ha =>
          bind (c := false) (d := false) (c' := false) (d' := false) (Q := Any)
            (same fun _ => trivial) fun _ _ s _ => ⟨rfl, by rintro _ _ ⟨⟩; exact ha⟩
  withLabel _ h := bind (c := false) (d := false) (c' := false) (d' := false) (Q := Any)
    (same fun _ => trivial) fun _ _ => jIte (fun _ => error fun s a s' => by simp [redeclError])
      fun _ => bind (c := false) (d := false) (c' := false) (d' := false) (Q := Any)
        (same fun _ => trivial) fun _ _ =>
        bind (c' := false) (d' := false) h fun a ha =>
          bind (c := false) (d := false) (c' := false) (d' := false) (Q := Any)
            (same fun _ => trivial) fun _ _ s _ => ⟨rfl, by rintro _ _ ⟨⟩; exact ha⟩
  ifNotTolerant {c m m'} _ h s hs := by
    unfold Ressa.ifNotTolerant at hs ⊢
    split
    · exact ⟨rfl, fun _ _ _ => trivial⟩
    · next ht =>
      rw [if_neg ht] at hs
      have hm : m s ≠ .diverge := fun e => hs (by rw [e])
      rw [(h s hm).1]
      exact ⟨rfl, fun _ _ _ => trivial⟩
  ignoreNext := same fun _ => trivial
  expectCommaSep := same fun _ => trivial
  templateElement := same fun _ => trivial
  regexLiteral := same fun _ => trivial
  varIdent _ := same fun _ => trivial
  withGuard := same fun _ => trivial
  loopP ht hb s := loopN ht hb (c'' := false) (d'' := false) (mu s + 1) _ s

end FuelJ

theorem recN_fuel_succ (c : Bool) : ∀ n, StepRel fuelJ c (recN n) (recN (n + 1))
  | 0 => by constructor <;> intros <;> exact fun s h => absurd rfl h
  | n + 1 => by
    haveI := (recN_fuel_succ true n).closed
    exact step_j (R := recN n) (R' := recN (n + 1))

theorem fuelJ_trans {α c d} {m m' m'' : P α} (h : fuelJ.rel c d Any m m')
    (h' : fuelJ.rel c d Any m' m'') : fuelJ.rel c d Any m m'' := fun s hs =>
  ⟨(h' s ((h s hs).1 ▸ hs)).1.trans (h s hs).1, fun _ _ _ => trivial⟩

theorem recN_fuel (c : Bool) (n : Nat) : ∀ k, StepRel fuelJ c (recN n) (recN (n + k))
  | 0 => by constructor <;> intros <;> exact FuelJ.same fun _ => trivial
  | k + 1 => by
    have h := recN_fuel c n k
    have h' := recN_fuel_succ c (n + k)
    exact ⟨fuelJ_trans h.assign h'.assign, fuelJ_trans h.expression h'.expression,
      fuelJ_trans h.unary h'.unary, fuelJ_trans h.expo h'.expo, fuelJ_trans h.lhs h'.lhs,
      fuelJ_trans h.stmt h'.stmt, fuelJ_trans h.listItem h'.listItem,
      fun i => fuelJ_trans (h.pattern i) (h'.pattern i)⟩

/-! ## No divergence -/

/-- The `Sys` without any condition. -/
def anySys : Sys where
  good _ := True
  inv _ := True
  ord _ _ := True
  errOk _ _ := True
  panicOk := True

theorem anySys_ok : SysOk anySys where
  refl _ := trivial
  trans _ _ := trivial
  ctxInv _ _ := trivial
  ctxOrd _ := trivial
  next {s} _ := by
    have := nextItem_mu s
    revert this
    cases nextItem s <;> simp [Res.Sat, anySys]
  look _ := trivial
  slice _ _ _ := ⟨trivial, fun _ _ => trivial⟩
  pos _ _ _ := trivial
  errPos _ _ _ _ := trivial
  peek _ _ _ := trivial
  reinterpret _ := trivial
  label _ _ := trivial
  fail _ := trivial
  template _ _ _ _ := ⟨fun _ => trivial, fun _ _ => trivial⟩
  regex _ _ _ := by split <;> intros <;> trivial

theorem Sys.post_ne_diverge {S : Sys} {α d} {Q : α → Prop} {s r} (h : S.post d Q s r) :
    r ≠ .diverge := by
  rintro rfl; exact h

theorem Sys.post_mu {S : Sys} {α d} {Q : α → Prop} {s a s'} (h : S.post d Q s (.ok a s')) :
    mu s' + one d ≤ mu s := h.1

/-! ## The equations -/

/-- `full` agrees with every cut-off parser. -/
theorem recN_le_full {α : Type} (f : Rec → P α) (g : P α)
    (hf : ∀ n k, fuelJ.rel true true Any (f (recN n)) (f (recN (n + k))))
    (hg : ∀ s, g s = f (recN (mu s + 1)) s) (hd : ∀ s, g s ≠ .diverge) (n : Nat) {c d} :
    fuelJ.rel c d Any (f (recN n)) g := by
  intro s hs
  refine ⟨?_, fun _ _ _ => trivial⟩
  by_cases hn : n ≤ mu s + 1
  · obtain ⟨k, hk⟩ : ∃ k, mu s + 1 = n + k := ⟨mu s + 1 - n, by omega⟩
    rw [hg, hk]
    exact (hf n k s hs).1
  · obtain ⟨k, rfl⟩ : ∃ k, n = mu s + 1 + k := ⟨n - (mu s + 1), by omega⟩
    rw [(hf (mu s + 1) k s (hg s ▸ hd s)).1, hg]

theorem full_post (s : St) : StepRel ⟨fun _ => True, fun _ d _ m _ => anySys.post d Any s (m s)⟩
    true full full := by
  have h := Sys.recN_rel anySys_ok (mu s + 1)
  have l : mu s < mu s + 1 + one (!true) := by simp
  exact ⟨h.assign s l trivial, h.expression s l trivial, h.unary s l trivial, h.expo s l trivial,
    h.lhs s l trivial, h.stmt s l trivial, h.listItem s l trivial,
    fun k => h.pattern k s l trivial⟩

theorem recN_full (n : Nat) (c : Bool) : StepRel fuelJ c (recN n) full where
  assign := recN_le_full (·.assign) _ (fun n k => (recN_fuel _ n k).assign) (fun _ => rfl)
    (fun s => Sys.post_ne_diverge (full_post s).assign) n
  expression := recN_le_full (·.expression) _ (fun n k => (recN_fuel _ n k).expression) (fun _ => rfl)
    (fun s => Sys.post_ne_diverge (full_post s).expression) n
  unary := recN_le_full (·.unary) _ (fun n k => (recN_fuel _ n k).unary) (fun _ => rfl)
    (fun s => Sys.post_ne_diverge (full_post s).unary) n
  expo := recN_le_full (·.expo) _ (fun n k => (recN_fuel _ n k).expo) (fun _ => rfl)
    (fun s => Sys.post_ne_diverge (full_post s).expo) n
  lhs := recN_le_full (·.lhs) _ (fun n k => (recN_fuel _ n k).lhs) (fun _ => rfl)
    (fun s => Sys.post_ne_diverge (full_post s).lhs) n
  stmt := recN_le_full (·.stmt) _ (fun n k => (recN_fuel _ n k).stmt) (fun _ => rfl)
    (fun s => Sys.post_ne_diverge (full_post s).stmt) n
  listItem := recN_le_full (·.listItem) _ (fun n k => (recN_fuel _ n k).listItem) (fun _ => rfl)
    (fun s => Sys.post_ne_diverge (full_post s).listItem) n
  pattern i := recN_le_full (·.pattern i) _ (fun n k => (recN_fuel _ n k).pattern i) (fun _ => rfl)
    (fun s => Sys.post_ne_diverge ((full_post s).pattern i)) n

/-- The parser satisfies the recursion equations of the source. -/
theorem full_eq : full = step full := by
  have h := fun s : St => by
    haveI := (recN_full (mu s) true).closed
    exact step_j (J := fuelJ) (c := true) (R := recN (mu s)) (R' := full)
  have e : ∀ {α : Type} (f : Rec → P α),
      (∀ s, fuelJ.rel true true Any (f (step (recN (mu s)))) (f (step full))) →
      (∀ s, f full s = f (step (recN (mu s))) s) → (∀ s, f full s ≠ .diverge) →
      f full = f (step full) := by
    intro α f h1 h2 h3
    funext s
    rw [(h1 s s (h2 s ▸ h3 s)).1, h2]
  have ha : full.assign = (step full).assign :=
    e (·.assign) (fun s => (h s).assign) (fun _ => rfl)
      (fun s => Sys.post_ne_diverge (full_post s).assign)
  have hb : full.expression = (step full).expression :=
    e (·.expression) (fun s => (h s).expression) (fun _ => rfl)
      (fun s => Sys.post_ne_diverge (full_post s).expression)
  have hc : full.unary = (step full).unary :=
    e (·.unary) (fun s => (h s).unary) (fun _ => rfl)
      (fun s => Sys.post_ne_diverge (full_post s).unary)
  have hd : full.expo = (step full).expo :=
    e (·.expo) (fun s => (h s).expo) (fun _ => rfl)
      (fun s => Sys.post_ne_diverge (full_post s).expo)
  have he : full.lhs = (step full).lhs :=
    e (·.lhs) (fun s => (h s).lhs) (fun _ => rfl)
      (fun s => Sys.post_ne_diverge (full_post s).lhs)
  have hf : full.stmt = (step full).stmt :=
    e (·.stmt) (fun s => (h s).stmt) (fun _ => rfl)
      (fun s => Sys.post_ne_diverge (full_post s).stmt)
  have hg : full.listItem = (step full).listItem :=
    e (·.listItem) (fun s => (h s).listItem) (fun _ => rfl)
      (fun s => Sys.post_ne_diverge (full_post s).listItem)
  have hh : full.pattern = (step full).pattern := by
    funext k
    exact e (·.pattern k) (fun s => (h s).pattern k) (fun _ => rfl)
      (fun s => Sys.post_ne_diverge ((full_post s).pattern k))
  revert ha hb hc hd he hf hg hh
  generalize step full = r
  cases r
  intros
  simp only at *
  subst_vars
  rfl

/-- The recursion equations have no other solution. -/
theorem full_unique {R : Rec} (h : R = step R) : R = full := by
  have hn : ∀ n c, StepRel fuelJ c (recN n) R := by
    intro n
    induction n with
    | zero => intro c; constructor <;> intros <;> exact fun s h => absurd rfl h
    | succ n ih =>
      intro c
      haveI := (ih true).closed
      rw [h]
      exact step_j (R := recN n) (R' := R)
  have e : ∀ {α : Type} (f : Rec → P α),
      (∀ s, fuelJ.rel true true Any (f (recN (mu s + 1))) (f R)) →
      (∀ s, f full s = f (recN (mu s + 1)) s) → (∀ s, f full s ≠ .diverge) →
      f R = f full := by
    intro α f h1 h2 h3
    funext s
    rw [(h1 s s (h2 s ▸ h3 s)).1, h2]
  have ha : R.assign = full.assign :=
    e (·.assign) (fun s => (hn _ _).assign) (fun _ => rfl)
      (fun s => Sys.post_ne_diverge (full_post s).assign)
  have hb : R.expression = full.expression :=
    e (·.expression) (fun s => (hn _ _).expression) (fun _ => rfl)
      (fun s => Sys.post_ne_diverge (full_post s).expression)
  have hc : R.unary = full.unary :=
    e (·.unary) (fun s => (hn _ _).unary) (fun _ => rfl)
      (fun s => Sys.post_ne_diverge (full_post s).unary)
  have hd : R.expo = full.expo :=
    e (·.expo) (fun s => (hn _ _).expo) (fun _ => rfl)
      (fun s => Sys.post_ne_diverge (full_post s).expo)
  have he : R.lhs = full.lhs :=
    e (·.lhs) (fun s => (hn _ _).lhs) (fun _ => rfl)
      (fun s => Sys.post_ne_diverge (full_post s).lhs)
  have hf : R.stmt = full.stmt :=
    e (·.stmt) (fun s => (hn _ _).stmt) (fun _ => rfl)
      (fun s => Sys.post_ne_diverge (full_post s).stmt)
  have hg : R.listItem = full.listItem :=
    e (·.listItem) (fun s => (hn _ _).listItem) (fun _ => rfl)
      (fun s => Sys.post_ne_diverge (full_post s).listItem)
  have hh : R.pattern = full.pattern := by
    funext k
    exact e (·.pattern k) (fun s => (hn _ _).pattern k) (fun _ => rfl)
      (fun s => Sys.post_ne_diverge ((full_post s).pattern k))
  revert ha hb hc hd he hf hg hh
  generalize full = r
  cases r
  cases R
  intros
  simp only at *
  subst_vars
  rfl

/-- A loop that ends within its bound does the same with any larger bound. -/
theorem loopN_mono {σ α : Type} {test : σ → P (Option α)} {body : σ → P (σ ⊕ α)} :
    ∀ {n k x s}, loopN n test body x s ≠ .diverge →
      loopN (n + k) test body x s = loopN n test body x s := by
  intro n
  induction n with
  | zero => intro k x s h; exact absurd rfl h
  | succ n ih =>
    intro k x s h
    rw [Nat.add_right_comm]
    unfold loopN at h ⊢
    simp only [bind_def] at h ⊢
    cases ht : test x s with
    | ok o s' =>
      rw [ht] at h
      cases o with
      | some a => rfl
      | none =>
        simp only [bind_def] at h ⊢
        cases hb : body x s' with
        | ok r s'' =>
          rw [hb] at h
          cases r with
          | inl x' => exact ih h
          | inr a => rfl
        | _ => rfl
    | _ => rfl

end Ressa
