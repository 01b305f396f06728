import Verif.Proof.ExecTac

/-!
# Rules for checks, scopes and look-ahead
-/

namespace Ressa

open Gr

variable {C : Cfg} {Γ : Env} {f f' g : Flags} {i j o : List Tok} {α β : Type}

namespace Exec

/-- From (and to) the flags of which nothing is known. -/
theorem from_bot {m : P α} {a} (h : Exec C Γ (false, false) i m a (false, false) o) :
    Exec C Γ f i m a (false, false) o := h.weaken Flags.bot_le Flags.Le.refl

theorem to_bot {m : P α} {a} (h : Exec C Γ f i m a g o) : Exec C Γ f i m a (false, false) o :=
  h.weaken Flags.Le.refl Flags.bot_le

/-- A check whose violation tolerant parsers overlook. -/
theorem tolerable {φ : Ctx → Bool} {m : P Empty} {k : Unit → P β} {b} (v : Bool)
    (h : ∀ x, φ (Γ.ctx (C.nl i) x) = v) (ht : v = true → C.tolerant = true)
    (hk : Exec C Γ f i (k ()) b f' o) :
    Exec C Γ f i (P.when (Ressa.readC φ) (Ressa.ifNotTolerant m) >>= k) b f' o := by
  unfold P.when
  refine bindAssoc (readC v h ?_)
  cases v
  · exact iteB_neg (by simp) (pureBind hk)
  · exact iteB_pos rfl (ifNotTolerant (ht rfl) hk)

/-- A check that does not apply. -/
theorem skipped {φ : Ctx → Bool} {m : P Unit} {k : Unit → P β} {b}
    (h : ∀ x, φ (Γ.ctx (C.nl i) x) = false) (hk : Exec C Γ f i (k ()) b f' o) :
    Exec C Γ f i (P.when (Ressa.readC φ) m >>= k) b f' o := by
  unfold P.when
  exact bindAssoc (readC false h (iteB_neg (by simp) (pureBind hk)))

/-- From here on `yield` is an operator. -/
theorem setYield {k : Unit → P β} {b} (hk : Exec C (Γ.yielding true) f i (k ()) b f' o) :
    Exec C (Γ.yielding false) f i (setYield false >>= k) b f' o := by
  intro s hs
  have he := congrArg (Env.yielding · false) hs.at_.env
  have hat : Stand C (Γ.yielding true) f i { s with ctx := { s.ctx with allowYield := false } } :=
    ⟨⟨hs.at_.cfg,
      (Ctx.env_yielding _).symm.trans he, hs.at_.pend, hs.at_.eof, hs.at_.comments, nofun⟩,
      fun _ => rfl, hs.flags,
      (let ⟨all, ha, hr⟩ := hs.ok; ⟨all, ha, hr.stream, hr.lines, hr.look⟩),
      fun h => ⟨(hs.pos h).look, (hs.pos h).cur⟩⟩
  obtain ⟨s', h1, h2, h3⟩ := hk _ hat
  exact ⟨s', h1, ⟨h2.at_, nofun, h2.flags, h2.ok, h2.pos⟩, h3⟩

/-! Scopes -/

theorem withIteration {m : P α} {a b} (h : Exec C Γ f i m a g o) :
    Exec C Γ f i (withIteration b m) a g o :=
  inScope Γ (fun _ => rfl) (fun _ h => h) (fun _ => rfl) (fun _ _ => rfl)
    (fun _ _ _ h => h) (fun _ _ => rfl)
    (fun _ h => h) (fun _ _ _ h => h) h

theorem savingIteration {m : P α} {a} (h : Exec C Γ f i m a g o) :
    Exec C Γ f i (savingIteration m) a g o :=
  inScope Γ (fun _ => rfl) (fun _ h => h) (fun _ => rfl) (fun _ _ => rfl)
    (fun _ _ _ h => h) (fun _ _ => rfl)
    (fun _ h => h) (fun _ _ _ h => h) h

theorem withSwitch {m : P α} {a} (h : Exec C Γ f i m a g o) :
    Exec C Γ f i (withSwitch m) a g o :=
  inScope Γ (fun _ => rfl) (fun _ h => h) (fun _ => rfl) (fun _ _ => rfl)
    (fun _ _ _ h => h) (fun _ _ => rfl)
    (fun _ h => h) (fun _ _ _ h => h) h

theorem withYield {m : P α} {a b y} (h : Exec C (Γ.yielding y) f i m a g o)
    (hy : b = false ∨ y = false) : Exec C Γ f i (withYield b m) a g o :=
  inScope (Γ.yielding y) (fun _ => rfl) (fun _ h => h) (fun _ => rfl) (fun _ _ => rfl)
    (fun _ _ _ h => h) (fun _ _ => rfl)
    (fun _ _ h => hy.resolve_right (by rw [show y = true from h]; nofun)) (fun _ _ h _ => h) h

theorem savingYield {m : P α} {a} (h : Exec C Γ f i m a g o) :
    Exec C Γ f i (savingYield m) a g o :=
  inScope Γ (fun _ => rfl) (fun _ h => h) (fun _ => rfl) (fun _ _ => rfl)
    (fun _ _ _ h => h) (fun _ _ => rfl) (fun _ h => h) (fun _ _ h _ => h) h

theorem withDirective {m : P α} {a b} (h : Exec C Γ f i m a g o) :
    Exec C Γ f i (withDirective b m) a g o :=
  inScope Γ (fun _ => rfl) (fun _ h => h) (fun _ => rfl) (fun _ _ => rfl)
    (fun _ _ _ h => h) (fun _ _ => rfl)
    (fun _ h => h) (fun _ _ _ h => h) h

theorem leakDirective {m : P α} {a b} (h : Exec C Γ f i m a g o) :
    Exec C Γ f i (leakDirective b m) a g o :=
  inScope Γ (fun _ => rfl) (fun _ h => h) (fun _ => rfl) (fun _ _ => rfl)
    (fun _ _ _ h => h) (fun _ _ => rfl)
    (fun _ h => h) (fun _ _ _ h => h) h

theorem withStrict {m : P α} {a} (h : Exec C Γ.strictly f i m a g o) :
    Exec C Γ f i (withStrict m) a g o :=
  inScope Γ.strictly (fun _ => rfl) (fun _ h => h) (fun _ => rfl) (fun _ _ => rfl)
    (fun _ _ _ h => h) (fun _ _ => rfl)
    (fun _ h => h) (fun _ _ _ h => h) h

theorem withAwaitYield {m : P α} {a b c y} (h : Exec C (Γ.fn b y) f i m a g o)
    (hy : c = false ∨ y = false) : Exec C Γ f i (withAwaitYield b c m) a g o :=
  inScope (Γ.fn b y) (fun _ => rfl) (fun _ h => h) (fun _ => rfl) (fun _ _ => rfl)
    (fun _ _ _ h => h) (fun _ _ => rfl)
    (fun _ _ h => hy.resolve_right (by rw [show y = true from h]; nofun)) (fun _ _ h _ => h) h

theorem withFunctionBody {m : P α} {a} (h : Exec C Γ.body f i m a g o) :
    Exec C Γ f i (withFunctionBody m) a g o :=
  inScope Γ.body (fun _ => rfl) (fun _ h => h) (fun _ => rfl) (fun _ _ => rfl)
    (fun _ _ _ h => h) (fun _ _ => rfl)
    (fun _ h => h) (fun _ _ _ h => h) h

theorem withLabel {m : P α} {a n} (hn : '$' :: n ∉ Γ.labels)
    (h : Exec C (Γ.label n) f i m a g o) : Exec C Γ f i (withLabel n m) a g o := by
  unfold Ressa.withLabel
  refine readC false (fun x => by simpa [Env.ctx] using hn) (ite_neg (by simp) ?_)
  refine inScope (restore := fun _ c =>
      { c with labelSet := c.labelSet.filter (fun l => l != '$' :: n) })
    (set := fun c => { c with labelSet := ('$' :: n) :: c.labelSet }) (Γ.label n)
    (fun _ => rfl) (fun _ h => h) (fun _ => rfl) (fun x y => ?_)
    (fun _ _ _ h => h) (fun _ _ => rfl)
    (fun _ h => h) (fun _ _ _ h => h) h
  have : (Γ.labels.filter fun l => l != '$' :: n) = Γ.labels :=
    List.filter_eq_self.2 fun l hl => by
      simp only [bne_iff_ne, ne_eq]
      rintro rfl
      exact hn hl
  simp [Ctx.env, Env.ctx, Env.label, Env.yielding, this]

/-! Separators -/

theorem expectCommaSep {t} {k : Unit → P β} {b} (ht : t.item.token = .punct .comma)
    (hk : Exec C Γ f i (k ()) b f' o) : Exec C Γ f (t :: i) (expectCommaSep >>= k) b f' o := by
  refine bind (g := f) (j := i) (a := ()) ?_ hk
  have h1 : Exec C Γ f (t :: i) (Ressa.expectPunct .comma) () f i := by ex
  have h2 : Exec C Γ f (t :: i)
      (do if ← atPunct .comma then Ressa.skipItem else Pure.pure () : P Unit) () f i := by ex
  intro s hs
  unfold Ressa.expectCommaSep
  cases hT : s.tolerant
  · simpa [hT] using h1 s hs
  · simpa [hT] using h2 s hs

theorem ignoreErr {t} {k : Unit → P β} {b}
    (hk : Exec C Γ f i (k ()) b f' o) :
    Exec C Γ f (t :: i) (P.ignoreErr Ressa.nextItem >>= k) b f' o := by
  have h1 : Exec C Γ f (t :: i) Ressa.nextItem t.item f i := by ex
  refine bind (g := f) (j := i) (a := ()) ?_ hk
  intro s hs
  obtain ⟨s', h2, h3⟩ := h1 s hs
  exact ⟨s', by simp [P.ignoreErr, h2], h3⟩

/-! Look-ahead -/

/-- The token after the next one. -/
theorem _root_.Ressa.Stand.peek {t s} (h : Stand C Γ f (t :: i) s) :
    (peekSkipComments s.rest).map (·.token) = (i.head?).map (·.item.token) := by
  have peek : ∀ l : List Tok, (peekSkipComments l).map (·.token) =
      ((l.filter fun t => !t.item.token.isComment).head?).map (·.item.token) := by
    intro l
    induction l with
    | nil => rfl
    | cons t l ih =>
      unfold peekSkipComments
      by_cases hc : t.item.token.isComment = true <;> simp [hc, ih]
  have hp := h.at_.pend
  unfold St.pend at hp
  by_cases he : s.foundEof = true
  · rw [if_pos he] at hp; cases hp
  · rw [if_neg he] at hp
    cases hp
    exact peek _

theorem peekTok {t} {φ : Token → Bool} (h : φ .eof = false) {s} (hs : Stand C Γ f (t :: i) s) :
    (match peekSkipComments s.rest with
      | some next => φ next.token
      | none => false) = φ (head i) := by
  have := hs.peek
  cases hp : peekSkipComments s.rest with
  | none =>
    rw [hp] at this
    cases i with
    | nil => simp [head, h]
    | cons t l => simp at this
  | some it =>
    rw [hp] at this
    cases i with
    | nil => simp at this
    | cons t l =>
      simp only [Option.map_some, List.head?_cons, Option.some.injEq] at this
      simp only [head, this]

theorem notAsyncFunction {t} {k : Bool → P β} {b}
    (h : C.text t ≠ t!"async" ∨ head i ≠ .keyword .function)
    (hk : Exec C Γ f (t :: i) (k false) b f' o) :
    Exec C Γ f (t :: i) (atAsyncFunction >>= k) b f' o := by
  unfold Ressa.atAsyncFunction
  refine bindAssoc (atContextual ?_)
  by_cases ht : C.text t = t!"async"
  · refine iteB_pos (by simpa using ht) ?_
    intro s hs
    obtain ⟨s', h1, h2⟩ := hk s hs
    refine ⟨s', ?_, h2⟩
    have hh := hs.peek
    cases hr : s.rest with
    | nil => simpa [Ressa.scanPeek, bind_def, P.get, hr] using h1
    | cons u r =>
      have hu : u.item.token.matchesKeyword .function = false := by
        cases hm : u.item.token.matchesKeyword .function
        · rfl
        · exfalso
          have hf : u.item.token = .keyword .function := by
            cases hx : u.item.token <;> simp_all [Token.matchesKeyword]
          rw [hr, peekSkipComments, if_neg (by simp [hf, Token.isComment])] at hh
          cases i with
          | nil => simp at hh
          | cons t' i =>
            simp only [Option.map_some, List.head?_cons, Option.some.injEq] at hh
            exact (h.resolve_left (by simp [ht])) (by rw [head_cons, ← hh, hf])
      obtain ⟨all, _, hl⟩ := hs.ok
      cases hp : getItemPosition s.lines u.item.span.start with
      | none => rw [hl.lines] at hp; exact absurd hp getItemPosition_some
      | some p =>
        simpa [Ressa.scanPeek, bind_def, P.get, hr, hp, hu, Ressa.positionOf, Ressa.lookPos] using h1
  · exact iteB_neg (by simpa using ht) (pureBind hk)

/-- A slice within a slice. -/
theorem _root_.Ressa.sliceB_sub {x m n : Txt} {a b c d : Nat} (h : sliceB x a d = some m)
    (h' : sliceB x b c = some n) (h1 : a ≤ b) (h2 : c ≤ d) : ∀ z ∈ n, z ∈ m := by
  obtain ⟨ha, hd, _⟩ := sliceB_boundary h
  obtain ⟨hb, hc, _⟩ := sliceB_boundary h'
  obtain ⟨l, hl⟩ := sliceB_of_boundary ha hb h1
  obtain ⟨r, hr⟩ := sliceB_of_boundary hc hd h2
  have := sliceB_append (sliceB_append hl h') hr
  rw [h] at this
  cases this
  intro z hz
  simp [hz]

theorem _root_.Ressa.LfOnly.lineOf_append {p w : Txt} (h : LfOnly (p ++ w)) :
    lineOf (p ++ w) = lineOf p + w.countP isLineTerm := by
  simp [lineOf, h.left.lineStarts_append h.right, h.right.length_lineStarts, Nat.add_assoc]

/-- Joined items stand on the same line. -/
theorem _root_.Ressa.Gr.Cfg.joined.line {t t' : Tok} (ht : ItemOk C.stream t.item)
    (h : C.text t = t!"async") (hj : C.joined t t') : C.lineAt t' = C.lineAt t := by
  obtain ⟨hlf, ⟨gap, hg, hb⟩, -⟩ := hj
  have ht := ht.text
  rw [h] at ht
  have hw := sliceB_append ht hg
  obtain ⟨p, u, h1, h2, h3⟩ := sliceB_iff.1 hw
  have h4 : takeB C.stream t.item.span.start = some p :=
    takeB_iff.2 ⟨_, by rw [h1, List.append_assoc], h2⟩
  have h5 : takeB C.stream t'.item.span.start = some (p ++ (t!"async" ++ gap)) :=
    takeB_iff.2 ⟨u, h1, by simp only [blen_append] at *; omega⟩
  rw [Cfg.lineAt, Cfg.lineAt, h4, h5]
  rw [h1] at hlf
  have h6 : (t!"async" ++ gap).countP isLineTerm = 0 := by
    rw [List.countP_eq_zero]
    intro c hc
    rcases List.mem_append.1 hc with hc | hc
    · exact (by decide : ∀ c ∈ t!"async", ¬isLineTerm c = true) c hc
    · rcases hb c hc with rfl | rfl <;> decide
  simp only [Option.getD_some]
  rw [hlf.left.lineOf_append, h6]
  rfl

/-- Nothing stands between joined items. -/
theorem _root_.Ressa.Stand.joined {t t' s} (hs : Stand C Γ f (t :: t' :: i) s)
    (hj : C.joined t t') : ∃ r, s.rest = t' :: r := by
  obtain ⟨-, ⟨gap, hg, hb⟩, -⟩ := hj
  obtain ⟨all, hok, hr⟩ := hs.ok
  obtain ⟨pre, u, h1, h2⟩ := hr.look
  have hc : s.stream = C.stream := congrArg Cfg.stream hs.at_.cfg
  have hp := hs.at_.pend
  unfold St.pend at hp
  by_cases he : s.foundEof = true
  · rw [if_pos he] at hp; cases hp
  rw [if_neg he] at hp
  simp only [List.cons.injEq] at hp
  have hu : u.item = t.item := by rw [← h2]; exact hs.item
  cases hx : s.rest with
  | nil => rw [hx] at hp; simp at hp
  | cons c r =>
    by_cases hk : c.item.token.isComment = true
    · exfalso
      rw [hx] at hp h1
      have hm : t' ∈ r := by
        have : t' ∈ t' :: i := List.mem_cons_self
        rw [← hp.2] at this
        simp only [List.mem_filter, List.mem_cons] at this
        rcases this with ⟨rfl | h, h'⟩
        · simp [hk] at h'
        · exact h
      obtain ⟨raw, h3, h4⟩ := hok.items c (by simp [h1])
      have hpw := hok.ordered
      rw [h1] at hpw
      have hpw := (List.pairwise_append.1 hpw).2.1
      rw [List.pairwise_cons, List.pairwise_cons] at hpw
      have h5 := hpw.1 c (by simp)
      have h6 := hpw.2.1 t' hm
      rw [hu] at h5
      rw [hc] at h3
      have hsub := sliceB_sub hg h3 h5 h6
      cases hx : c.item.token <;> simp [hx, Token.isComment] at hk
      rw [hx] at h4
      obtain ⟨z, hz, h7, h8⟩ := h4
      rcases hb z (hsub z hz) with h | h
      · exact h7 h
      · exact h8 h
    · rw [hx] at hp
      rw [List.filter_cons_of_pos (by simp [hk])] at hp
      exact ⟨r, by rw [(List.cons.inj hp.2).1]⟩

/-- The position that the line table gives for an item joined to the next one. -/
theorem _root_.Ressa.Stand.position {t t' s} (hs : Stand C Γ f (t :: t' :: i) s)
    (hj : C.joined t t') :
    ∃ n, getItemPosition s.lines t'.item.span.start = some ⟨C.lineAt t', n⟩ := by
  obtain ⟨hlf, ⟨gap, hg, -⟩, c, w, hw, hc⟩ := hj
  obtain ⟨all, hok, hr⟩ := hs.ok
  have hst : s.stream = C.stream := congrArg Cfg.stream hs.at_.cfg
  have hn : sliceB C.stream t'.item.span.start t'.item.span.stop = some (C.text t') := by
    cases hx : sliceB C.stream t'.item.span.start t'.item.span.stop with
    | none => simp [Cfg.text, Cfg.textOf, hx] at hw
    | some m => simp [Cfg.text, Cfg.textOf, hx]
  obtain ⟨p, u, h1, h2, h3⟩ := sliceB_iff.1 hn
  rw [hw] at h1
  have h4 : takeB C.stream t'.item.span.start = some p :=
    takeB_iff.2 ⟨_, by rw [h1, List.append_assoc], h2⟩
  refine ⟨columnOf p, ?_⟩
  rw [hr.lines, hst, Cfg.lineAt, h4, ← h2, h1, List.append_assoc]
  refine position_correct p _ ?_ (by simpa using hc) ?_
  · rw [← List.append_assoc, ← h1]; exact hlf.crOk
  · intro h
    have h : c = '\r' := by simpa using h
    subst h
    have := hlf '\r' (by rw [h1]; simp) rfl
    cases this

theorem asyncFunction {t t'} {k : Bool → P β} {b}
    (h : C.text t = t!"async" ∧ t'.item.token = .keyword .function) (hj : C.joined t t')
    (hk : Exec C Γ f (t :: t' :: i) (k true) b f' o) :
    Exec C Γ f (t :: t' :: i) (atAsyncFunction >>= k) b f' o := by
  unfold Ressa.atAsyncFunction
  refine here fun ht => ?_
  refine bindAssoc (atContextual ?_)
  refine iteB_pos (by simpa using h.1) ?_
  have hk' : Exec C Γ f (t :: t' :: i) (Ressa.lookPos >>= fun pos =>
      k (pos.line == C.lineAt t' && t'.item.token.matchesKeyword .function)) b f' o := by
    refine lookPosLf hj.1 fun n => ?_
    rw [hj.line ht h.1, h.2]
    simpa [Token.matchesKeyword] using hk
  intro s hs
  obtain ⟨s', h1, h2⟩ := hk' s hs
  refine ⟨s', ?_, h2⟩
  obtain ⟨r, hr⟩ := hs.joined hj
  obtain ⟨n, hn⟩ := hs.position hj
  simpa [Ressa.scanPeek, bind_def, P.get, hr, hn, Ressa.positionOf, Ressa.lookPos] using h1

theorem atImportCall {t} {k : Bool → P β} {b}
    (hk : Exec C Γ f (t :: i)
      (k (t.item.token.matchesKeyword .import && (head i).matchesPunct .openParen)) b f' o) :
    Exec C Γ f (t :: i) (atImportCall >>= k) b f' o :=
  get _ (fun s hs => by
    rw [hs.item]
    exact congrArg _ (peekTok (φ := (·.matchesPunct .openParen)) rfl hs)) hk

theorem atLexicalDecl {t} {k : Bool → P β} {b}
    (hk : Exec C Γ f (t :: i)
      (k ((head i).isIdent || (head i).matchesPunct .openBracket ||
      (head i).matchesPunct .openBrace || (head i).matchesKeyword .let ||
      (head i).matchesKeyword .yield)) b f' o) :
    Exec C Γ f (t :: i) (atLexicalDecl >>= k) b f' o :=
  get _ (fun _ hs => peekTok (φ := fun t => t.isIdent || t.matchesPunct .openBracket ||
      t.matchesPunct .openBrace || t.matchesKeyword .let ||
      t.matchesKeyword .yield) rfl hs) hk

theorem isStartOfExpr {k : Bool → P β} {b}
    (hk : Exec C Γ f i (k (Gr.yieldStart (head i))) b f' o) :
    Exec C Γ f i (isStartOfExpr >>= k) b f' o := by
  refine lookIs ?_
  revert hk
  generalize head i = t
  intro hk
  cases t with
  | punct p => cases p <;> exact hk
  | keyword k => cases k <;> exact hk
  | _ => exact hk

theorem lookPrecedence {k : Nat → P β} {b}
    (hk : Exec C Γ f i (k (binPrecedence Γ.allowIn (head i))) b f' o) :
    Exec C Γ f i (lookPrecedence >>= k) b f' o := by
  unfold Ressa.lookPrecedence
  exact bindAssoc (readC Γ.allowIn (fun _ => rfl) (bindAssoc (lookTok (pureBind hk))))

/-- What `qualifiedPropName` tests. -/
def _root_.Ressa.Gr.Cfg.qual (C : Cfg) (t : Token) : Bool :=
  t.isIdent || t.isKeyword || C.ext.isLiteral t || t.matchesPunct .openBracket

theorem qualifiedPropName {k : Bool → P β} {b} (hk : Exec C Γ f i (k (C.qual (head i))) b f' o) :
    Exec C Γ f i (qualifiedPropName >>= k) b f' o := by
  unfold Ressa.qualifiedPropName
  refine bindAssoc (lookTok ?_)
  cases h : (head i).isIdent || (head i).isKeyword
  · refine bindAssoc (pureBind (bindAssoc (isLiteralTok ?_)))
    have : C.qual (head i) = (C.ext.isLiteral (head i) || (head i).matchesPunct .openBracket) := by
      rw [Cfg.qual, h, Bool.false_or]
    rw [this] at hk
    cases h' : C.ext.isLiteral (head i)
    · rw [h', Bool.false_or] at hk
      exact pureBind hk
    · rw [h', Bool.true_or] at hk
      exact pureBind hk
  · have : C.qual (head i) = true := by simp [Cfg.qual, h]
    rw [this] at hk
    exact bindAssoc (pureBind (pureBind hk))

theorem atQualifiedPropKey {k : Bool → P β} {b} (hk : Exec C Γ f i (k (qualKey (head i))) b f' o) :
    Exec C Γ f i (atQualifiedPropKey >>= k) b f' o := lookIs (φ := qualKey) hk

/-! The end of a statement -/

theorem consumeSemicolon (h : Core C Γ .semi i o) {k : Unit → P β} {b}
    (hk : Exec C Γ f o (k ()) b f' j) : Exec C Γ f i (consumeSemicolon >>= k) b f' j := by
  refine bind ?_ hk
  unfold Ressa.consumeSemicolon
  generalize hx : CT.semi = nt at h
  cases h with
  | semiToken ht => ex
  | semiLine h1 h2 =>
    ex
  | semiEnd h =>
    have h2 : head i ≠ .punct .semiColon := by rcases h with h | h <;> simp [h]
    cases hn : C.nl i
    · rcases h with h | h <;> ex
    · ex
  | _ => exact nomatch hx

/-! Loops with a test on the look-ahead -/

theorem untilExit {σ : Type} {φ : Token → Bool} {body : σ → P σ} {x : σ}
    (h : φ (head i) = true) : Exec C Γ f i (untilP (Ressa.lookIs φ) body x) x f i := by
  refine loopExit ?_
  refine lookIs ?_
  rw [h]
  ex

theorem untilStep {σ : Type} {φ : Token → Bool} {body : σ → P σ} {x x' : σ} {a}
    (h : φ (head i) = false) (hb : Exec C Γ f i (body x) x' g j) (hl : j.length < i.length)
    (hk : Exec C Γ g j (untilP (Ressa.lookIs φ) body x') a f' o) :
    Exec C Γ f i (untilP (Ressa.lookIs φ) body x) a f' o := by
  refine loopStep (x' := x') (g := g) (j := j) ?_ (bind hb pure) hl hk
  refine lookIs ?_
  rw [h]
  ex

theorem untilExit' {σ : Type} {cond : P Bool} {body : σ → P σ} {x : σ}
    (h : Exec C Γ f i cond true f i) : Exec C Γ f i (untilP cond body x) x f i := by
  refine loopExit ?_
  ex

theorem untilStep' {σ : Type} {cond : P Bool} {body : σ → P σ} {x x' : σ} {a}
    (h : Exec C Γ f i cond false f i) (hb : Exec C Γ f i (body x) x' g j)
    (hl : j.length < i.length) (hk : Exec C Γ g j (untilP cond body x') a f' o) :
    Exec C Γ f i (untilP cond body x) a f' o := by
  refine loopStep (x' := x') (g := g) (j := j) ?_ (bind hb pure) hl hk
  ex

end Exec

end Ressa
