import Verif.Proof.Traverse

/-!
# State invariants

A `Sys` describes what is to be preserved along every run: an invariant of states, a preorder
between the first and the last state, the errors allowed and whether panics are allowed.
`SysOk` are its obligations on the primitives.  `Sys.judgement` is then a `Base` judgement, which
also says that nothing diverges while fewer than `bound` items are left.
-/

namespace Ressa

/-- `r` satisfies one condition for each way to end, and has not diverged. -/
def Res.Sat {α : Type} (ok : α → St → Prop) (err : Error → St → Prop) (panic : Prop) :
    Res α → Prop
  | .ok a s => ok a s
  | .err e s => err e s
  | .panic => panic
  | .diverge => False

/-- The message names the item `i`. -/
def Msg.About (stream : Txt) (i : Item) : Msg → Prop
  | .expected _ found => found = i.token
  | .unexpected name _ => name = (sliceB stream i.span.start i.span.stop).getD []
  | .raw _ => False

/-- What is preserved along every run. -/
structure Sys where
  good : Item → Prop
  inv : St → Prop
  ord : St → St → Prop
  errOk : Error → St → Prop
  panicOk : Prop

/-- 1 for `true`. -/
def one : Bool → Nat
  | true => 1
  | false => 0

@[simp] theorem one_true : one true = 1 := rfl
@[simp] theorem one_false : one false = 0 := rfl

/-- What a `Sys` says about an outcome of a run from `s`. -/
def Sys.post (S : Sys) {α : Type} (d : Bool) (Q : α → Prop) (s : St) : Res α → Prop
  | .ok a s' => mu s' + one d ≤ mu s ∧ S.inv s' ∧ S.ord s s' ∧ Q a
  | .err e s' => mu s' ≤ mu s ∧ S.inv s' ∧ S.ord s s' ∧ S.errOk e s'
  | .panic => S.panicOk
  | .diverge => False

/-- The judgement of a `Sys`. -/
def Sys.judgement (S : Sys) (bound : Nat) : Judgement where
  good := S.good
  rel c d Q m _ := ∀ s, mu s < bound + one (!c) → S.inv s → S.post d Q s (m s)

/-- The obligations on the primitives. -/
structure SysOk (S : Sys) : Prop where
  refl s : S.ord s s
  trans {a b c} : S.ord a b → S.ord b c → S.ord a c
  ctxInv {s} (c) : S.inv s → S.inv { s with ctx := c }
  ctxOrd {s} (c) : S.ord s { s with ctx := c }
  next {s} : S.inv s → (nextItem s).Sat (fun i s' => S.inv s' ∧ S.ord s s' ∧ S.good i)
    (fun e s' => S.inv s' ∧ S.ord s s' ∧ S.errOk e s') S.panicOk
  look {s} : S.inv s → S.good s.look
  slice {s i} : S.inv s → S.good i → sliceB s.stream i.span.start i.span.stop = none →
    S.panicOk ∧ ∀ p t, S.errOk (.operationError p t) s
  pos {s i} : S.inv s → S.good i → getItemPosition s.lines i.span.start = none → S.panicOk
  errPos {s i p m} : S.inv s → S.good i → getItemPosition s.lines i.span.start = some p →
    m.About s.stream i → S.errOk (.unexpectedToken p m) s
  peek {s t} : S.inv s → s.rest.head? = some t →
    getItemPosition s.lines t.item.span.start = none → S.panicOk
  reinterpret {s} (p) : S.errOk (.unableToReinterpret p t!"expression" t!"pattern") s
  label {s} (p t) : S.errOk (.redecl p t) s
  fail {s e} : FailOk e → S.errOk e s
  template {s i} {raw : Txt} : S.inv s → S.good i → (∃ k, i.token = .template k) →
    sliceB s.stream i.span.start i.span.stop = some raw →
    (sliceB raw 1 (blen raw - 1) = none ∨ blen raw = 0 → S.panicOk) ∧
    (i.token = .template .head ∨ i.token = .template .body →
      sliceB raw 1 (blen raw - 2) = none ∨ blen raw < 2 → S.panicOk)
  regex {s i} : S.inv s → S.good i → i.token = .regex →
    match splitLastSlash ((sliceB s.stream i.span.start i.span.stop).getD []) with
    | none => ∀ p t, S.errOk (.unexpectedToken p (.raw t)) s
    | some (before, _) => sliceB before 1 (blen before) = none → S.panicOk

/-! ## `nextItem` and the number of items left -/

/-- The runs of the loop of `nextItem`, as a relation. -/
inductive Next : Span → List Tok → St → Res Item → Prop
  | eof {span s} : s.look.token.isEof = true → s.foundEof = false →
    Next span [] s (.ok s.look
      { s with rest := [], ctx := { s.ctx with hasLineTerm := s.pendEnd }, foundEof := true })
  | after {span s} : s.look.token.isEof = true → s.foundEof = true →
    Next span [] s (.err .parseAfterEoF
      { s with rest := [], ctx := { s.ctx with hasLineTerm := s.pendEnd } })
  | missing {span s} : s.look.token.isEof = false →
    Next span [] s (.err .unexpectedEoF
      { s with rest := [], ctx := { s.ctx with hasLineTerm := s.pendEnd } })
  | bad {span t ts s} : updatePositions s.stream s.lookPos span t.item.span.start = none →
    Next span (t :: ts) s .panic
  | badComment {span t ts s cur look kind} :
    updatePositions s.stream s.lookPos span t.item.span.start = some (cur, look) →
    t.item.token = .comment kind →
    sliceB s.stream t.item.span.start t.item.span.stop = none →
    Next span (t :: ts) s (.err (.operationError cur t!"Unable to get string")
      { s with rest := ts, ctx := { s.ctx with hasLineTerm := t.nl }, curPos := cur,
               lookPos := look })
  | comment {span t ts s cur look kind c r} :
    updatePositions s.stream s.lookPos span t.item.span.start = some (cur, look) →
    t.item.token = .comment kind →
    sliceB s.stream t.item.span.start t.item.span.stop = some c →
    Next t.item.span ts
      { s with rest := ts, ctx := { s.ctx with hasLineTerm := t.nl }, curPos := cur,
               lookPos := look, comments := s.comments ++ [(kind, c, t.item.span)] } r →
    Next span (t :: ts) s r
  | token {span t ts s cur look} :
    updatePositions s.stream s.lookPos span t.item.span.start = some (cur, look) →
    t.item.token.isComment = false →
    Next span (t :: ts) s (.ok s.look
      { s with rest := ts, ctx := { s.ctx with hasLineTerm := t.nl }, curPos := cur,
               lookPos := look, look := t.item })

theorem nextItemGo_spec : ∀ (ts : List Tok) (span : Span) (s : St),
    Next span ts s (nextItemGo span ts s)
  | [], span, s => by
    simp only [nextItemGo]
    split
    · next h =>
      split
      · next h' => exact .after h h'
      · next h' => exact .eof h (by simpa using h')
    · next h => exact .missing (by simpa using h)
  | t :: ts, span, s => by
    simp only [nextItemGo]
    cases hu : updatePositions s.stream s.lookPos span t.item.span.start with
    | none => exact .bad hu
    | some p =>
      obtain ⟨cur, look⟩ := p
      cases ht : t.item.token with
      | comment kind =>
        cases hs : sliceB s.stream t.item.span.start t.item.span.stop with
        | none => exact .badComment hu ht hs
        | some c => exact .comment hu ht hs (nextItemGo_spec ts _ _)
      | _ => exact .token hu (by rw [ht]; rfl)

theorem nextItem_spec (s : St) : Next s.look.span s.rest s (nextItem s) := nextItemGo_spec _ _ _

theorem Next.mu_le {span ts s r} (h : Next span ts s r) :
    r.Sat (fun _ s' => mu s' + 1 ≤ ts.length + one (!s.foundEof))
      (fun _ s' => mu s' ≤ ts.length + one (!s.foundEof)) True := by
  induction h with
  | eof _ h => simp [Res.Sat, mu, h]
  | after _ h => simp [Res.Sat, mu, h]
  | missing _ => simp only [Res.Sat, mu]; cases (_ : St).foundEof <;> simp
  | bad => trivial
  | badComment => simp only [Res.Sat, mu]; cases (_ : St).foundEof <;> simp
  | @comment _ _ _ _ _ _ _ _ r _ _ _ _ ih =>
    cases r <;> simp only [Res.Sat, List.length_cons] at ih ⊢ <;> omega
  | token => simp only [Res.Sat, mu]; cases (_ : St).foundEof <;> simp

theorem nextItem_mu (s : St) :
    (nextItem s).Sat (fun _ s' => mu s' + 1 ≤ mu s) (fun _ s' => mu s' ≤ mu s) True := by
  have := (nextItem_spec s).mu_le
  have e : s.rest.length + one (!s.foundEof) = mu s := by cases h : s.foundEof <;> simp [mu, h]
  rw [e] at this
  exact this

/-! ## The instance -/

section
variable {S : Sys} (H : SysOk S)
include H

theorem Sys.post_bind {α β d1 d2 d Q Q'} {m : P α} {f : α → P β} {s : St}
    (h : S.post d1 Q s (m s))
    (k : ∀ a s', m s = .ok a s' → mu s' + one d1 ≤ mu s → S.inv s' → Q a →
      S.post d2 Q' s' (f a s'))
    (hd : one d ≤ one d1 + one d2) : S.post d Q' s ((m >>= f) s) := by
  rw [bind_def]
  cases hm : m s with
  | ok a s' =>
    rw [hm] at h
    obtain ⟨h1, h2, h3, h4⟩ := h
    have := k a s' hm h1 h2 h4
    simp only
    cases hf : f a s' with
    | ok b s'' =>
      rw [hf] at this
      obtain ⟨k1, k2, k3, k4⟩ := this
      exact ⟨by omega, k2, H.trans h3 k3, k4⟩
    | err e s'' =>
      rw [hf] at this
      obtain ⟨k1, k2, k3, k4⟩ := this
      exact ⟨by omega, k2, H.trans h3 k3, k4⟩
    | panic => rw [hf] at this; exact this
    | diverge => rw [hf] at this; exact this
  | err e s' => rw [hm] at h; exact h
  | panic => rw [hm] at h; exact h
  | diverge => rw [hm] at h; exact h

theorem Sys.post_pure {α} {Q : α → Prop} {a s} (hi : S.inv s) (h : Q a) :
    S.post false Q s ((pure a : P α) s) :=
  ⟨Nat.le_refl _, hi, H.refl s, h⟩

omit H in
theorem Sys.post_weaken {α d} {Q Q' : α → Prop} {s r} (h : ∀ a, Q a → Q' a) (p : S.post d Q s r) :
    S.post d Q' s r := by
  cases r with
  | ok a s' => exact ⟨p.1, p.2.1, p.2.2.1, h _ p.2.2.2⟩
  | _ => exact p

omit H in
theorem Sys.post_d {α d} {Q : α → Prop} {s r} (p : S.post true Q s r) : S.post d Q s r := by
  cases r with
  | ok a s' => exact ⟨by have := p.1; cases d <;> simp at * <;> omega, p.2⟩
  | _ => exact p

theorem Sys.post_get {α} {f : St → α} {s} (hi : S.inv s) : S.post false Any s (P.get f s) :=
  ⟨Nat.le_refl _, hi, H.refl s, trivial⟩

theorem Sys.post_expected {α d} {Q : α → Prop} {i e s} (hi : S.inv s) (hg : S.good i) :
    S.post d Q s (expectedTokenError i e s) := by
  unfold expectedTokenError
  split
  · next h => exact H.pos hi hg h
  · next h => exact ⟨Nat.le_refl _, hi, H.refl s, H.errPos hi hg h rfl⟩

theorem Sys.post_unexpected {α d} {Q : α → Prop} {i e s} (hi : S.inv s) (hg : S.good i) :
    S.post d Q s (unexpectedTokenError i e s) := by
  unfold unexpectedTokenError
  split
  · next h => exact H.pos hi hg h
  · next h => exact ⟨Nat.le_refl _, hi, H.refl s, H.errPos hi hg h rfl⟩

theorem Sys.post_next {s} (hi : S.inv s) : S.post true S.good s (nextItem s) := by
  have h1 := nextItem_mu s
  have h2 := H.next hi
  cases h : nextItem s with
  | ok i s' => rw [h] at h1 h2; exact ⟨h1, h2⟩
  | err e s' => rw [h] at h1 h2; exact ⟨h1, h2⟩
  | panic => rw [h] at h2; exact h2
  | diverge => rw [h] at h2; exact h2

theorem Sys.post_modC {f s} (hi : S.inv s) : S.post false Any s (P.modC f s) :=
  ⟨Nat.le_refl _, H.ctxInv _ hi, H.ctxOrd _, trivial⟩

theorem Sys.post_loopN {σ α d} {Q : α → Prop} {test : σ → P (Option α)} {body : σ → P (σ ⊕ α)}
    {n : Nat}
    (ht : ∀ x s, mu s < n → S.inv s → S.post false (fun o => ∀ a, o = some a → Q a) s (test x s))
    (hb : ∀ x s, mu s < n → S.inv s → S.post true (fun r => ∀ a, r = .inr a → Q a) s (body x s)) :
    ∀ k x s, mu s < n → mu s < k → S.inv s → d = false → S.post d Q s (loopN k test body x s) := by
  intro k
  induction k with
  | zero => intro x s _ h; omega
  | succ k ih =>
    rintro x s hn hk hi rfl
    unfold loopN
    refine Sys.post_bind H (d2 := false) (ht x s hn hi) ?_ (by simp)
    intro o s' ho hmu hi' ho'
    simp only [one_false] at hmu
    cases o with
    | some a => exact Sys.post_pure H hi' (ho' a rfl)
    | none =>
      refine Sys.post_bind H (d2 := false) (hb x s' (by omega) hi') ?_ (by simp)
      intro r s'' hr hmu' hi'' hr'
      simp only [one_true] at hmu'
      cases r with
      | inl x' => exact ih x' s'' (by omega) (by omega) hi'' rfl
      | inr a => exact Sys.post_pure H hi'' (hr' a rfl)

theorem Sys.judgement_loopP {n : Nat} {σ α c} {Q : α → Prop} {test test' body body'} {x : σ}
    (ht : ∀ x, (S.judgement n).rel c false (fun o => ∀ a, o = some a → Q a) (test x) (test' x))
    (hb : ∀ x, (S.judgement n).rel c true (fun r => ∀ a, r = .inr a → Q a) (body x) (body' x)) :
    (S.judgement n).rel c false Q (loopP test body x) (loopP test' body' x) := by
  intro s hs hi
  exact Sys.post_loopN H (n := n + one (!c)) (fun x s h hi => ht x s h hi)
    (fun x s h hi => hb x s h hi) _ x s hs (Nat.lt_succ_self _) hi rfl

theorem Sys.post_inScope {α d} {Q : α → Prop} {set restore} {m : P α} {s}
    (h : S.post d Q { s with ctx := set s.ctx } (m { s with ctx := set s.ctx })) :
    S.post d Q s (inScope set restore m s) := by
  have e : inScope set restore m s = (m >>= fun r => P.modC (restore s.ctx) >>= fun _ => pure r)
      { s with ctx := set s.ctx } := rfl
  rw [e]
  have : S.post d Q { s with ctx := set s.ctx }
      ((m >>= fun r => P.modC (restore s.ctx) >>= fun _ => pure r) { s with ctx := set s.ctx }) := by
    refine Sys.post_bind H (d2 := false) h ?_ (by simp)
    intro a s' _ _ hi' ha
    exact Sys.post_bind H (d2 := false) (Sys.post_modC H hi')
      (fun _ s'' _ _ hi'' _ => Sys.post_pure H hi'' ha) (by simp)
  revert this
  generalize (m >>= _) _ = r
  intro h
  cases r with
  | ok a s' => exact ⟨h.1, h.2.1, H.trans (H.ctxOrd _) h.2.2.1, h.2.2.2⟩
  | err e s' => exact ⟨h.1, h.2.1, H.trans (H.ctxOrd _) h.2.2.1, h.2.2.2⟩
  | panic => exact h
  | diverge => exact h

/-- `Sys.judgement` is preserved by the primitives. -/
theorem Sys.base (n : Nat) : Base (S.judgement n) where
  weakenD h s hs hi := Sys.post_d (h s hs hi)
  weakenQ hq h s hs hi := Sys.post_weaken hq (h s hs hi)
  pure h s _ hi := Sys.post_pure H hi h
  bindT {α β c Q Q' m m' f f'} h k s hs hi := by
    refine Sys.post_bind H (d1 := true) (d2 := false) (h s hs hi) ?_ (by simp)
    intro a s' _ hmu hi' ha
    refine k a ha s' ?_ hi'
    cases c <;> simp at hs hmu ⊢ <;> omega
  bindF h k s hs hi := by
    refine Sys.post_bind H (d1 := false) (h s hs hi) (d2 := _) ?_ (Nat.le_add_left _ _)
    intro a s' _ hmu hi' ha
    refine k a ha s' ?_ hi'
    simp at hmu
    omega
  nextItem s _ hi := Sys.post_next H hi
  look s _ hi := ⟨Nat.le_refl _, hi, H.refl s, H.look hi⟩
  readC _ s _ hi := Sys.post_get H hi
  lookTok s _ hi := Sys.post_get H hi
  lookIs _ s _ hi := Sys.post_get H hi
  lookPos s _ hi := Sys.post_get H hi
  isRestrictedTok _ s _ hi := Sys.post_get H hi
  isStrictReservedTok _ s _ hi := Sys.post_get H hi
  isLiteralTok _ s _ hi := Sys.post_get H hi
  atImportCall s _ hi := Sys.post_get H hi
  atLexicalDecl s _ hi := Sys.post_get H hi
  atAsyncFunction s _ hi := by
    have hsl : S.post false Any s (streamSlice s.look s) := by
      unfold streamSlice
      split
      · exact ⟨Nat.le_refl _, hi, H.refl s, trivial⟩
      · next h => exact (H.slice hi (H.look hi) h).1
    unfold atAsyncFunction atContextual
    refine Sys.post_bind H (d1 := false) (d2 := false) (Q := Any) ?_ ?_ (by simp)
    · rw [look_bind]
      exact Sys.post_bind H (d1 := false) (d2 := false) hsl
        (fun _ _ _ _ hi _ => Sys.post_pure H hi trivial) (by simp)
    · intro b s' _ _ hi' _
      split
      · cases hr : s'.rest.head? with
        | none =>
          have : ∀ k : Option Item → P Bool, (scanPeek >>= k) s' = k none s' := by
            intro k; simp [scanPeek, hr]
          rw [this]
          exact Sys.post_pure H hi' trivial
        | some t =>
          have : ∀ k : Option Item → P Bool, (scanPeek >>= k) s' = k (some t.item) s' := by
            intro k; simp [scanPeek, hr]
          rw [this]
          refine Sys.post_bind H (d1 := false) (d2 := false) (Q := Any) (Sys.post_get H hi') ?_
            (by simp)
          intro pos s'' hs'' _ hi'' _
          have : s' = s'' := by simp only [Ressa.lookPos, get_run, Res.ok.injEq] at hs''; exact hs''.2
          subst this
          refine Sys.post_bind H (d1 := false) (d2 := false) (Q := Any) ?_
            (fun _ _ _ _ hi _ => Sys.post_pure H hi trivial) (by simp)
          unfold positionOf
          split
          · exact ⟨Nat.le_refl _, hi', H.refl _, trivial⟩
          · next h => exact H.peek hi' hr h
      · exact Sys.post_pure H hi' trivial
  streamSlice hg s _ hi := by
    unfold Ressa.streamSlice
    split
    · exact ⟨Nat.le_refl _, hi, H.refl s, trivial⟩
    · next h => exact (H.slice hi hg h).1
  getString hg s _ hi := by
    unfold Ressa.getString
    split
    · exact ⟨Nat.le_refl _, hi, H.refl s, trivial⟩
    · next h => exact ⟨Nat.le_refl _, hi, H.refl s, (H.slice hi hg h).2 _ _⟩
  stringForOrEmpty _ s _ hi := Sys.post_get H hi
  expectedTokenError _ hg s _ hi := Sys.post_expected H hi hg
  unexpectedTokenError _ hg s _ hi := Sys.post_unexpected H hi hg
  expectedLook _ s _ hi := Sys.post_expected H hi (H.look hi)
  unexpectedLook _ s _ hi := Sys.post_unexpected H hi (H.look hi)
  reinterpretError s _ hi := ⟨Nat.le_refl _, hi, H.refl s, H.reinterpret _⟩
  fail he s _ hi := ⟨Nat.le_refl _, hi, H.refl s, H.fail he⟩
  modC _ s _ hi := Sys.post_modC H hi
  inScope _ h s hs hi := Sys.post_inScope H (h _ hs (H.ctxInv _ hi))
  withLabel {α c d Q m m'} l h s hs hi := by
    unfold Ressa.withLabel
    simp only [readC_bind]
    split
    · exact ⟨Nat.le_refl _, hi, H.refl s, H.label _ _⟩
    · refine Sys.post_bind H (d1 := false) (d2 := d) (Sys.post_modC H hi) ?_ (by simp)
      intro _ s' hs' _ hi' _
      have hmu : mu s' = mu s := by
        simp only [P.modC, Res.ok.injEq] at hs'; rw [← hs'.2]; rfl
      refine Sys.post_bind H (d2 := false) (h s' (by omega) hi') ?_ (by simp)
      intro a s'' _ _ hi'' ha
      exact Sys.post_bind H (d1 := false) (d2 := false) (Sys.post_modC H hi'')
        (fun _ _ _ _ hi _ => Sys.post_pure H hi ha) (by simp)
  ifNotTolerant {c m m'} _ h s hs hi := by
    have := h s hs hi
    unfold Ressa.ifNotTolerant
    split
    · exact ⟨Nat.le_refl _, hi, H.refl s, trivial⟩
    · cases hm : m s with
      | ok a _ => exact nomatch a
      | err e s' => rw [hm] at this; exact this
      | panic => rw [hm] at this; exact this
      | diverge => rw [hm] at this; exact this
  ignoreNext s _ hi := by
    have := Sys.post_next H hi
    unfold P.ignoreErr
    cases h : nextItem s with
    | ok i s' =>
      rw [h] at this
      exact ⟨by have := this.1; simp at *; omega, this.2.1, this.2.2.1, trivial⟩
    | err e s' => rw [h] at this; exact ⟨this.1, this.2.1, this.2.2.1, trivial⟩
    | panic => rw [h] at this; exact this
    | diverge => rw [h] at this; exact this
  expectCommaSep s hs hi := by
    have hp : ∀ s, S.inv s → S.post true Any s (expectPunct .comma s) := by
      intro s hi
      refine Sys.post_bind H (d2 := false) (Sys.post_next H hi) ?_ (by simp)
      intro i s' _ _ hi' hg
      split
      · exact Sys.post_expected H hi' hg
      · exact Sys.post_pure H hi' trivial
    unfold Ressa.expectCommaSep
    split
    · simp only [atPunct_bind]
      split
      · exact Sys.post_d (Sys.post_bind H (d := true) (d2 := false) (Sys.post_next H hi)
          (fun _ _ _ _ hi _ => Sys.post_pure H hi trivial) (by simp))
      · exact Sys.post_pure H hi trivial
    · exact Sys.post_d (hp s hi)
  templateElement s hs hi := by
    unfold Ressa.templateElement
    refine Sys.post_bind H (d2 := false) (Sys.post_next H hi) ?_ (by simp)
    intro i s' _ _ hi' hg
    have hstr : ∀ k : Txt → P TemplateElement,
        (∀ raw, sliceB s'.stream i.span.start i.span.stop = some raw →
          S.post false Any s' (k raw s')) →
        S.post false Any s' ((Ressa.getString i >>= k) s') := by
      intro k hk
      cases hsl : sliceB s'.stream i.span.start i.span.stop with
      | none =>
        have : (Ressa.getString i >>= k) s' =
            .err (.operationError s'.curPos t!"Unable to get string") s' := by
          rw [bind_def]; simp [Ressa.getString, hsl]
        rw [this]
        exact ⟨Nat.le_refl _, hi', H.refl _, (H.slice hi' hg hsl).2 _ _⟩
      | some raw =>
        have : (Ressa.getString i >>= k) s' = k raw s' := by
          rw [bind_def]; simp [Ressa.getString, hsl]
        rw [this]; exact hk raw hsl
    have hopt : ∀ (o : Option Txt) (raw : Txt) (b : Bool), (o = none → S.panicOk) →
        S.post false Any s' ((do
          let cooked ← P.ofOption o
          pure (TemplateElement.mk raw cooked b) : P TemplateElement) s') := by
      intro o raw b ho
      cases o with
      | none => exact ho rfl
      | some v => exact Sys.post_pure H hi' trivial
    cases ht : i.token with
    | template k =>
      cases k with
      | head =>
        refine hstr _ fun raw hsl => hopt _ _ _ fun hn => ?_
        refine (H.template hi' hg ⟨_, ht⟩ hsl).2 (.inl ht) ?_
        split at hn
        · exact .inl hn
        · right; omega
      | body =>
        refine hstr _ fun raw hsl => hopt _ _ _ fun hn => ?_
        refine (H.template hi' hg ⟨_, ht⟩ hsl).2 (.inr ht) ?_
        split at hn
        · exact .inl hn
        · right; omega
      | tail =>
        refine hstr _ fun raw hsl => hopt _ _ _ fun hn => ?_
        refine (H.template hi' hg ⟨_, ht⟩ hsl).1 ?_
        split at hn
        · exact .inl hn
        · right; omega
      | noSub =>
        refine hstr _ fun raw hsl => hopt _ _ _ fun hn => ?_
        refine (H.template hi' hg ⟨_, ht⟩ hsl).1 ?_
        split at hn
        · exact .inl hn
        · right; omega
    | _ => exact Sys.post_expected H hi' (H.look hi')
  regexLiteral s hs hi := by
    unfold regexLiteral'
    refine Sys.post_bind H (d1 := false) (d2 := true) (Sys.post_modC H hi) ?_ (by simp)
    intro _ s0 _ _ hi0 _
    refine Sys.post_bind H (d2 := false) (Sys.post_next H hi0) ?_ (by simp)
    intro i s' _ _ hi' hg
    cases ht : i.token with
    | regex =>
      have hr := H.regex hi' hg ht
      refine Sys.post_bind H (d1 := false) (d2 := false)
        (Q := fun raw => raw = (sliceB s'.stream i.span.start i.span.stop).getD [])
        ⟨Nat.le_refl _, hi', H.refl _, rfl⟩ ?_ (by simp)
      intro raw s'' hs'' _ hi'' hraw
      have : s' = s'' := by
        simp only [Ressa.stringForOrEmpty, get_run, Res.ok.injEq] at hs''; exact hs''.2
      subst this
      rw [← hraw] at hr
      cases hn : splitLastSlash raw with
      | none =>
        rw [hn] at hr
        exact ⟨Nat.le_refl _, hi', H.refl _, hr _ _⟩
      | some p =>
        rw [hn] at hr
        dsimp only at hr
        dsimp only
        cases hb : sliceB p.1 1 (blen p.1) with
        | none => exact hr hb
        | some v => exact Sys.post_pure H hi' trivial
    | _ => exact Sys.post_expected H hi' (H.look hi')
  varIdent v s hs hi := by
    have ht : ∀ i s, S.inv s → S.good i → S.post false Any s (varIdentText i s) := by
      intro i s hi hg
      unfold varIdentText
      cases i.token with
      | ident => exact Sys.post_get H hi
      | keyword k => exact Sys.post_pure H hi trivial
      | _ => exact Sys.post_expected H hi hg
    unfold Ressa.varIdent
    refine Sys.post_bind H (d2 := false) (Sys.post_next H hi) ?_ (by simp)
    intro i s' _ _ hi' hg
    split
    · simp only [readC_bind]
      split
      · exact Sys.post_expected H hi' hg
      · exact ht i s' hi' hg
    · split
      · refine Sys.post_bind H (d1 := false) (d2 := false) (Q := Any) ?_ ?_ (by simp)
        · unfold P.and
          simp only [readC_bind]
          split
          · exact Sys.post_get H hi'
          · exact Sys.post_pure H hi' trivial
        · intro b s'' _ _ hi'' _
          split
          · exact Sys.post_expected H hi'' hg
          · simp only [readC_bind]
            split
            · exact Sys.post_expected H hi'' hg
            · exact ht i s'' hi'' hg
      · refine Sys.post_bind H (d1 := false) (d2 := false) (Q := Any) ?_ ?_ (by simp)
        · unfold P.and
          refine Sys.post_bind H (d1 := false) (d2 := false) (Q := Any) ?_ ?_ (by simp)
          · unfold P.or readModule
            simp only [get_bind]
            split
            · exact Sys.post_pure H hi' trivial
            · exact Sys.post_get H hi'
          · intro b s'' _ _ hi'' _
            split
            · refine Sys.post_bind H (d1 := false) (d2 := false) (Q := Any) ?_
                (fun _ _ _ _ hi _ => Sys.post_pure H hi trivial) (by simp)
              unfold Ressa.streamSlice
              split
              · exact ⟨Nat.le_refl _, hi'', H.refl _, trivial⟩
              · next h => exact (H.slice hi'' hg h).1
            · exact Sys.post_pure H hi'' trivial
        · intro b s'' _ _ hi'' _
          split
          · exact Sys.post_expected H hi'' hg
          · exact ht i s'' hi'' hg
  withGuard s hs hi := by
    unfold Ressa.withGuard P.when Ressa.curPos
    simp only [get_bind, readC_bind]
    split
    · unfold tolerateError Ressa.ifNotTolerant
      split
      · exact ⟨Nat.le_refl _, hi, H.refl _, trivial⟩
      · exact ⟨Nat.le_refl _, hi, H.refl s, H.fail (.with _)⟩
    · exact Sys.post_pure H hi trivial
  loopP ht hb := Sys.judgement_loopP H ht hb

/-! ## All parser functions -/

/-- The parser with recursion cut off at `n` satisfies the judgement while fewer than `n` items
are left. -/
theorem Sys.recN_rel (n : Nat) : StepRel (S.judgement n) true (recN n) (recN n) := by
  induction n with
  | zero =>
    constructor <;> intros <;> intro s hs <;> simp at hs
  | succ n ih =>
    haveI := Sys.base H n
    haveI := ih.closed
    have := step_j (J := S.judgement n) (c := false) (R := recN n) (R' := recN n)
    constructor
    · exact fun s hs hi => this.assign s (by simpa using hs) hi
    · exact fun s hs hi => this.expression s (by simpa using hs) hi
    · exact fun s hs hi => this.unary s (by simpa using hs) hi
    · exact fun s hs hi => this.expo s (by simpa using hs) hi
    · exact fun s hs hi => this.lhs s (by simpa using hs) hi
    · exact fun s hs hi => this.stmt s (by simpa using hs) hi
    · exact fun s hs hi => this.listItem s (by simpa using hs) hi
    · exact fun k s hs hi => this.pattern k s (by simpa using hs) hi

/-- The parser satisfies the judgement. -/
theorem Sys.full_rel (n : Nat) (c : Bool) : StepRel (S.judgement n) c full full := by
  have h := fun s => Sys.recN_rel H (mu s + 1)
  constructor
  · exact fun s _ hi => (h s).assign s (by simp) hi
  · exact fun s _ hi => (h s).expression s (by simp) hi
  · exact fun s _ hi => (h s).unary s (by simp) hi
  · exact fun s _ hi => (h s).expo s (by simp) hi
  · exact fun s _ hi => (h s).lhs s (by simp) hi
  · exact fun s _ hi => (h s).stmt s (by simp) hi
  · exact fun s _ hi => (h s).listItem s (by simp) hi
  · exact fun k s _ hi => (h s).pattern k s (by simp) hi

end

end Ressa
