import Verif.Proof.RenTraverse
import Verif.Proof.TwinSim
import Verif.Proof.TextLemmas
import Verif.Spec.Scanner

/-!
# Simulations between two texts with other names

Like `Verif.Proof.TwinSim`, with results that differ in the names.  Errors are compared in kind
and place.
-/

namespace Ressa

/-- A label in `label_set`, which starts with `$`, under the other name. -/
def labelRen (ρ : Txt → Txt) : Txt → Txt
  | [] => []
  | c :: w => c :: ρ w

theorem labelRen_inj {ρ : Txt → Txt} [W : Words ρ] {a b} (h : labelRen ρ a = labelRen ρ b) :
    a = b := by
  cases a <;> cases b <;> simp only [labelRen, List.cons.injEq, reduceCtorEq] at h ⊢
  exact ⟨h.1, W.inj h.2⟩

/-- The contexts of the two runs. -/
def CtxRen (ρ : Txt → Txt) (c c' : Ctx) : Prop :=
  ∃ o, c' = { c with firstCovert := o, labelSet := c.labelSet.map (labelRen ρ) }

namespace Twin

/-- The obligations on the primitives. -/
structure ROk (S : Twin) (ρ : Txt → Txt) : Prop where
  tok {i i'} : S.item i i' → i'.token = i.token
  line {p p' q q'} : S.pos p p' → S.pos q q' → (p'.line == q'.line) = (p.line == q.line)
  look {s s'} : S.R s s' → S.item s.look s'.look
  ctx {s s'} : S.R s s' → CtxRen ρ s.ctx s'.ctx
  ctxMod {s s'} {c c' : Ctx} : S.R s s' → CtxRen ρ c c' →
    S.R { s with ctx := c } { s' with ctx := c' }
  ext {s s'} : S.R s s' → s'.ext = s.ext
  tolerant {s s'} : S.R s s' → s'.tolerant = s.tolerant
  isModule {s s'} : S.R s s' → s'.isModule = s.isModule
  lookPos {s s'} : S.R s s' → S.pos s.lookPos s'.lookPos
  err {s s' e e'} : S.R s s' →
    ErrorKind (fun p p' => S.pos p p' ∨ p = s.curPos ∧ p' = s'.curPos) e e' → S.err e e'
  slice {s s' i i'} : S.R s s' → S.item i i' → ∃ w,
    sliceB s.stream i.span.start i.span.stop = some w ∧
    sliceB s'.stream i'.span.start i'.span.stop = some (ρ w) ∧
    ShapeOk w i.token ∧ ShapeOk (ρ w) i.token
  restricted {s s'} (t w) : S.R s s' → s.ext.isRestricted t (ρ w) = s.ext.isRestricted t w
  blame {s s' i i' p} : S.R s s' → S.item i i' → getItemPosition s.lines i.span.start = some p →
    ∃ p', getItemPosition s'.lines i'.span.start = some p' ∧ S.pos p p'
  peek {s s'} : S.R s s' → (peekSkipComments s'.rest).map (·.token) =
    (peekSkipComments s.rest).map (·.token)
  async {s s'} : S.R s s' → S.post false Eq s' (atAsyncFunction s) (atAsyncFunction s')
  next {s s'} : S.R s s' → S.post true S.item s' (Ressa.nextItem s) (Ressa.nextItem s')

end Twin

namespace RSim

open Twin (weakenD post_bind bindD bind bindT bindE pure ite get ofOption failAt diverge ofFuel)

variable {S : Twin} {ρ : Txt → Txt}

theorem bindR {α β} [Ren α] {d : Bool} {Q' : β → β → Prop} {m m' : P α}
    {f f' : α → P β} (h : S.rel false (RQ ρ) m m') (k : ∀ a, S.rel d Q' (f a) (f' (ren ρ a))) :
    S.rel d Q' (m >>= f) (m' >>= f') := bind h fun a _ e => by cases e; exact k a

theorem bindRT {α β} [Ren α] {Q' : β → β → Prop} {m m' : P α}
    {f f' : α → P β} (h : S.rel true (RQ ρ) m m') (k : ∀ a, S.rel false Q' (f a) (f' (ren ρ a))) :
    S.rel true Q' (m >>= f) (m' >>= f') := bindT h fun a _ e => by cases e; exact k a

/-- Where nothing is renamed. -/
theorem same {α} [Ren α] (h : ∀ a : α, ren ρ a = a) {d : Bool} {m m' : P α}
    (hm : S.rel d Eq m m') : S.rel d (RQ ρ) m m' := by
  intro s s' hr
  have := hm s s' hr
  revert this
  generalize m s = r
  intro k
  cases r with
  | ok a t =>
    obtain ⟨a', t', h1, h2, h3, h4⟩ := k
    exact ⟨a', t', h1, h2.symm.trans (h a).symm, h3, h4⟩
  | err e t => exact k
  | _ => trivial

theorem loopN {σ α} [Ren σ] [Ren α] {test test' : σ → P (Option α)} {body body'}
    (ht : ∀ x, S.rel false (RQ ρ) (test x) (test' (ren ρ x)))
    (hb : ∀ x, S.rel true (RQ ρ) (body x) (body' (ren ρ x))) :
    ∀ n x n' s s', S.R s s' → mu s' < n' →
        S.post false (RQ ρ) s' (Ressa.loopN n test body x s)
          (Ressa.loopN n' test' body' (ren ρ x) s')
  | 0, x => fun _ _ _ _ _ => trivial
  | n + 1, x => by
    intro n' s s' hr hmu
    cases n' with
    | zero => omega
    | succ n' =>
      unfold Ressa.loopN
      have h1 := ht x s s' hr
      rw [bind_def, bind_def]
      cases hm : test x s with
      | err e t =>
        rw [hm] at h1
        obtain ⟨e', t', h1, h2, h3, h4⟩ := h1
        rw [h1]; exact ⟨e', t', rfl, h2, h3, h4⟩
      | panic => trivial
      | diverge => trivial
      | ok o t =>
        rw [hm] at h1
        obtain ⟨_, t', e, rfl, hr', hmu'⟩ := h1
        rw [e]
        simp only [one_false, Nat.add_zero] at hmu' ⊢
        cases o with
        | some a =>
          rw [show ren ρ (some a) = some (ren ρ a) from rfl]
          exact ⟨ren ρ a, t', rfl, rfl, hr', by simpa using hmu'⟩
        | none =>
          rw [show ren ρ (none : Option α) = none from rfl]
          simp only
          have h2 := hb x t t' hr'
          rw [bind_def, bind_def]
          cases hbm : body x t with
          | err e t =>
            rw [hbm] at h2
            obtain ⟨e', t', h1, h2, h3, h4⟩ := h2
            rw [h1]; exact ⟨e', t', rfl, h2, h3, by omega⟩
          | panic => trivial
          | diverge => trivial
          | ok r u =>
            rw [hbm] at h2
            obtain ⟨_, u', e, rfl, hr'', hmu''⟩ := h2
            rw [e]
            simp only [one_true] at hmu''
            cases r with
            | inr a =>
              rw [show ren ρ (Sum.inr a : σ ⊕ α) = .inr (ren ρ a) from rfl]
              exact ⟨ren ρ a, u', rfl, rfl, hr'', by simp; omega⟩
            | inl x' =>
              rw [show ren ρ (Sum.inl x' : σ ⊕ α) = .inl (ren ρ x') from rfl]
              have := loopN ht hb n x' n' u u' hr'' (by omega)
              simp only
              revert this
              generalize Ressa.loopN n test body x' u = r
              intro h
              cases r with
              | ok b v =>
                obtain ⟨b', v', h1, h2, h3, h4⟩ := h
                exact ⟨b', v', h1, h2, h3, by omega⟩
              | err e v =>
                obtain ⟨b', v', h1, h2, h3, h4⟩ := h
                exact ⟨b', v', h1, h2, h3, by omega⟩
              | _ => trivial

/-- Updates of alike contexts. -/
macro "mod_ren" : tactic => `(tactic| (
  intro c c' h
  obtain ⟨o, e⟩ := h
  subst e
  exact ⟨_, rfl⟩))

variable (H : S.ROk ρ)
include H

theorem modC {f f'} (h : ∀ c c', CtxRen ρ c c' → CtxRen ρ (f c) (f' c')) :
    S.rel false Eq (P.modC f) (P.modC f') := fun _ s' hr =>
  ⟨(), { s' with ctx := f' s'.ctx }, rfl, rfl, H.ctxMod hr (h _ _ (H.ctx hr)), Nat.le_refl _⟩

theorem nextItem : S.rel true S.item nextItem nextItem := fun _ _ hr => H.next hr

theorem streamSlice {i i'} (hg : S.item i i') :
    S.rel false (RQ ρ) (streamSlice i) (streamSlice i') := by
  intro s s' hr
  obtain ⟨w, h1, h2, _⟩ := H.slice hr hg
  unfold Ressa.streamSlice
  rw [h1, h2]
  exact ⟨_, s', rfl, rfl, hr, Nat.le_refl _⟩

theorem getString {i i'} (hg : S.item i i') :
    S.rel false (RQ ρ) (getString i) (getString i') := by
  intro s s' hr
  obtain ⟨w, h1, h2, _⟩ := H.slice hr hg
  unfold Ressa.getString
  rw [h1, h2]
  exact ⟨_, s', rfl, rfl, hr, Nat.le_refl _⟩

/-- Texts with the delimiters of a kind of items. -/
def Shaped (ρ : Txt → Txt) (t : Token) (w w' : Txt) : Prop :=
  w' = ρ w ∧ ShapeOk w t ∧ ShapeOk w' t

theorem getShaped {i i'} (hg : S.item i i') :
    S.rel false (Shaped ρ i.token) (Ressa.getString i) (Ressa.getString i') := by
  intro s s' hr
  obtain ⟨w, h1, h2, h3, h4⟩ := H.slice hr hg
  unfold Ressa.getString
  rw [h1, h2]
  exact ⟨_, s', rfl, ⟨rfl, h3, h4⟩, hr, Nat.le_refl _⟩

theorem stringForOrEmpty {i i'} (hg : S.item i i') :
    S.rel false (RQ ρ) (stringForOrEmpty i) (stringForOrEmpty i') :=
  get fun s s' hr => by
    obtain ⟨w, h1, h2, _⟩ := H.slice hr hg
    rw [h1, h2]; rfl

theorem shapedForOrEmpty {i i'} (hg : S.item i i') :
    S.rel false (Shaped ρ i.token) (Ressa.stringForOrEmpty i) (Ressa.stringForOrEmpty i') :=
  get fun s s' hr => by
    obtain ⟨w, h1, h2, h3, h4⟩ := H.slice hr hg
    rw [h1, h2]; exact ⟨rfl, h3, h4⟩

omit H in
theorem ofSome {α β} {d : Bool} {Q : β → β → Prop} {o o' : Option α} {x x' : α} {f f' : α → P β}
    (h : o = some x) (h' : o' = some x') (k : S.rel d Q (f x) (f' x')) :
    S.rel d Q (P.ofOption o >>= f) (P.ofOption o' >>= f') := by
  subst h h'
  exact bind (Q := fun a a' => a = x ∧ a' = x') (pure ⟨rfl, rfl⟩) fun _ _ e => e.1 ▸ e.2 ▸ k

omit H in
theorem cooked {c : Char} {mid e : Txt} (hc : c.utf8Size = 1) {n : Nat} (he : blen e = n) :
    (if n ≤ blen (c :: (mid ++ e)) then sliceB (c :: (mid ++ e)) 1 (blen (c :: (mid ++ e)) - n)
      else none) = some mid := by
  rw [if_pos (by simp; omega)]
  exact sliceB_iff.2 ⟨[c], e, by simp, by simp [hc], by simp [hc]; omega⟩

omit H in
theorem splitLastSlash_none {t : Txt} (h : '/' ∉ t) : splitLastSlash t = none := by
  induction t with
  | nil => rfl
  | cons c t ih =>
    simp only [List.mem_cons, not_or] at h
    simp [splitLastSlash, ih h.2, Ne.symm h.1]

omit H in
theorem splitLastSlash_append {a t : Txt} (h : '/' ∉ t) :
    splitLastSlash (a ++ '/' :: t) = some (a, t) := by
  induction a with
  | nil => simp [splitLastSlash, splitLastSlash_none h]
  | cons c a ih => simp [splitLastSlash, ih]

omit H in
theorem regexOf_eq {p f : Txt} (h : '/' ∉ f) : regexOf ('/' :: (p ++ '/' :: f)) = ⟨p, f⟩ := by
  have h' : ∀ c ∈ f.reverse, (c != '/') = true := by
    intro c hc
    simp only [List.mem_reverse] at hc
    simp only [bne_iff_ne]
    rintro rfl
    exact h hc
  have e : ('/' :: (p ++ '/' :: f)).reverse = f.reverse ++ '/' :: (p.reverse ++ ['/']) := by simp
  unfold regexOf
  rw [e, List.dropWhile_append_of_pos h', List.takeWhile_append_of_pos h']
  simp

theorem expectedTokenError {α} {d : Bool} {Q : α → α → Prop} {i i' e e'}
    (hg : S.item i i') : S.rel d Q (expectedTokenError i e) (expectedTokenError i' e') := by
  intro s s' hr
  unfold Ressa.expectedTokenError
  cases h : getItemPosition s.lines i.span.start with
  | none => trivial
  | some p =>
    obtain ⟨p', h1, h2⟩ := H.blame hr hg h
    rw [h1]
    exact ⟨_, s', rfl, H.err hr (.unexpectedToken _ _ (.inl h2)), hr, Nat.le_refl _⟩

theorem unexpectedTokenError {α} {d : Bool} {Q : α → α → Prop} {i i' e e'}
    (hg : S.item i i') : S.rel d Q (unexpectedTokenError i e) (unexpectedTokenError i' e') := by
  intro s s' hr
  unfold Ressa.unexpectedTokenError
  cases h : getItemPosition s.lines i.span.start with
  | none => trivial
  | some p =>
    obtain ⟨p', h1, h2⟩ := H.blame hr hg h
    rw [h1]
    exact ⟨_, s', rfl, H.err hr (.unexpectedToken _ _ (.inl h2)), hr, Nat.le_refl _⟩

theorem expectedLook {α} {d : Bool} {Q : α → α → Prop} {e e'} :
    S.rel d Q (expectedLook e) (expectedLook e') :=
  fun s s' hr => expectedTokenError H (H.look hr) s s' hr

theorem unexpectedLook {α} {d : Bool} {Q : α → α → Prop} {e e'} :
    S.rel d Q (unexpectedLook e) (unexpectedLook e') :=
  fun s s' hr => unexpectedTokenError H (H.look hr) s s' hr

theorem look : S.rel false S.item look look := get fun _ _ hr => H.look hr

theorem readC {α} {f : Ctx → α} (h : ∀ x o a, f { x with firstCovert := o, labelSet := a } = f x) :
    S.rel false Eq (readC f) (readC f) :=
  get fun s s' hr => by
    obtain ⟨o, ho⟩ := H.ctx hr
    rw [ho]
    exact (h _ _ _).symm

theorem readModule : S.rel false Eq readModule readModule :=
  get fun _ _ hr => (H.isModule hr).symm

theorem lookIs {f : Token → Bool} : S.rel false Eq (lookIs f) (lookIs f) :=
  get fun _ _ hr => by rw [H.tok (H.look hr)]

theorem isStrictReservedTok {t} :
    S.rel false Eq (isStrictReservedTok t) (isStrictReservedTok t) :=
  get fun _ _ hr => by rw [H.ext hr]

theorem ifNotTolerant {m m' : P Empty} (h : S.rel false Eq m m') :
    S.rel false Eq (ifNotTolerant m) (ifNotTolerant m') := by
  intro s s' hr
  unfold Ressa.ifNotTolerant
  rw [H.tolerant hr]
  split
  · exact ⟨(), s', rfl, rfl, hr, Nat.le_refl _⟩
  · have := h s s' hr
    cases hm : m s with
    | ok a => exact nomatch a
    | err e t =>
      rw [hm] at this
      obtain ⟨e', t', h1, h2, h3, h4⟩ := this
      rw [h1]
      exact ⟨e', t', rfl, h2, h3, h4⟩
    | _ => trivial

theorem bindItem {β} {Q' : β → β → Prop} {f f' : Item → P β}
    (k : ∀ t sp sp', S.item ⟨t, sp⟩ ⟨t, sp'⟩ → S.rel false Q' (f ⟨t, sp⟩) (f' ⟨t, sp'⟩)) :
    S.rel true Q' (Ressa.nextItem >>= f) (Ressa.nextItem >>= f') := by
  refine bindT (nextItem H) fun ⟨t, sp⟩ ⟨t', sp'⟩ hi => ?_
  obtain rfl : t' = t := H.tok hi
  exact k t' sp sp' hi

theorem varIdentText [W : Words ρ] {t sp sp'} (hg : S.item ⟨t, sp⟩ ⟨t, sp'⟩) :
    S.rel false (RQ ρ) (varIdentText ⟨t, sp⟩) (varIdentText ⟨t, sp'⟩) := by
  unfold Ressa.varIdentText
  dsimp only
  split
  · exact stringForOrEmpty H hg
  · exact pure (W.keyword _).symm
  · exact expectedTokenError H hg

theorem varIdent [W : Words ρ] {v} : S.rel true (RQ ρ) (varIdent v) (varIdent v) := by
  unfold Ressa.varIdent
  refine bindItem H fun t sp sp' hg => ite (fun _ => ?_) fun _ => ite (fun _ => ?_) fun _ => ?_
  · exact bindE (readC H fun _ _ _ => rfl) fun _ => ite (fun _ => expectedTokenError H hg) fun _ =>
      varIdentText H hg
  · refine bindE ?_ fun _ => ite (fun _ => expectedTokenError H hg) fun _ =>
      bindE (readC H fun _ _ _ => rfl) fun _ => ite (fun _ => expectedTokenError H hg) fun _ =>
        varIdentText H hg
    exact bindE (readC H fun _ _ _ => rfl) fun _ => ite (fun _ => isStrictReservedTok H) fun _ =>
      pure rfl
  · refine bindE ?_ fun _ => ite (fun _ => expectedTokenError H hg) fun _ =>
      varIdentText H hg
    refine bindE ?_ fun _ => ite (fun _ => ?_) fun _ => pure rfl
    · exact bindE (readModule H) fun _ => ite (fun _ => pure rfl) fun _ => readC H fun _ _ _ => rfl
    · exact bindR (streamSlice H hg) fun w => pure (by simp only [ren_simp])

theorem skipItem : S.rel true Eq skipItem skipItem :=
  bindItem H fun _ _ _ _ => pure rfl

theorem readCtx : S.rel false (CtxRen ρ)
    (Ressa.readC id) (Ressa.readC id) := get fun _ _ hr => H.ctx hr

theorem scope {α} {d : Bool} {Q : α → α → Prop} {set restore m m'} (h : ScopeOk set restore)
    (hm : S.rel d Q m m') : S.rel d Q (inScope set restore m) (inScope set restore m') := by
  unfold inScope
  refine bind (readCtx H) fun c c' hc => bindE (modC H ?_) fun _ => bindD hm (fun a a' ha =>
    bindE (modC H ?_) fun _ => pure ha) (by simp)
  · cases h <;> mod_ren
  · obtain ⟨_, rfl⟩ := hc
    cases h <;> mod_ren

omit H in
theorem empty {d : Bool} {s' : St} {r r' : Res Empty} (h : S.post d (RQ ρ) s' r r') :
    S.post d Eq s' r r' := by
  cases r with
  | ok a => exact nomatch a
  | err => exact h
  | _ => trivial

theorem withLabel [W : Words ρ] {α} {d : Bool} {Q : α → α → Prop} {m m' : P α} (l)
    (h : S.rel d Q m m') : S.rel d Q (withLabel l m) (withLabel (ρ l) m') := by
  have hl : ('$' :: ρ l) = labelRen ρ ('$' :: l) := rfl
  unfold Ressa.withLabel
  rw [hl]
  generalize '$' :: l = w
  refine bindE (get fun s s' hr => ?_) fun _ => ite (fun _ =>
    failAt (fun _ => rfl) (fun _ => rfl) fun s s' hr => H.err hr (.redecl _ _ (.inr ⟨rfl, rfl⟩))) fun _ => ?_
  · obtain ⟨o, ho⟩ := H.ctx hr
    rw [ho, Bool.eq_iff_iff]
    simp only [List.contains_iff_mem, List.mem_map]
    constructor
    · exact fun h => ⟨w, h, rfl⟩
    · rintro ⟨x, hx, e⟩
      exact labelRen_inj e ▸ hx
  · refine bindE (modC H ?_) fun _ => bindD h (fun a a' ha =>
      bindE (modC H ?_) fun _ => pure ha) (by simp)
    · rintro c _ ⟨o, rfl⟩
      exact ⟨o, rfl⟩
    · rintro c _ ⟨o, rfl⟩
      refine ⟨o, ?_⟩
      simp only [List.filter_map]
      congr 2
      refine List.filter_congr fun x _ => ?_
      simp only [Function.comp_apply, bne]
      congr 1
      rw [Bool.eq_iff_iff, beq_iff_eq, beq_iff_eq]
      exact ⟨fun e => labelRen_inj e, fun e => e ▸ rfl⟩

/-- The primitives preserve the judgement. -/
theorem base [W : Words ρ] : RBase S.judgement ρ where
  tok := H.tok
  line := H.line
  weakenD h := weakenD h
  pure h := pure h
  bindT h k := bindT h k
  bindF h k := bind h k
  nextItem := nextItem H
  look := look H
  readC _ h := same (fun _ => rfl) (readC H h)
  lookTok := get fun s s' hr => H.tok (H.look hr)
  lookIs _ := same (fun _ => rfl) (lookIs H)
  lookPos := get fun s s' hr => H.lookPos hr
  isRestrictedTok hg := get fun s s' hr => by
    obtain ⟨w, h1, h2, _⟩ := H.slice hr hg
    rw [H.ext hr, h1, h2, H.tok hg]
    exact H.restricted _ w hr
  isStrictReservedTok _ := same (fun _ => rfl) (isStrictReservedTok H)
  isLiteralTok _ := same (fun _ => rfl) (get fun s s' hr => by rw [H.ext hr])
  atImportCall := same (fun _ => rfl) <| get fun s s' hr => by
    have := H.peek hr
    rw [H.tok (H.look hr)]
    cases h : peekSkipComments s.rest <;> cases h' : peekSkipComments s'.rest <;>
      rw [h, h'] at this <;> simp at this
    simp only [this]
  atLexicalDecl := same (fun _ => rfl) <| get fun s s' hr => by
    have := H.peek hr
    cases h : peekSkipComments s.rest <;> cases h' : peekSkipComments s'.rest <;>
      rw [h, h'] at this <;> simp at this
    simp only [this]
  atAsyncFunction := same (fun _ => rfl) fun s s' hr => H.async hr
  streamSlice hg := streamSlice H hg
  getString hg := getString H hg
  stringForOrEmpty hg := stringForOrEmpty H hg
  expectedTokenError _ _ hg := expectedTokenError H hg
  unexpectedTokenError _ _ hg := unexpectedTokenError H hg
  expectedLook _ _ := expectedLook H
  unexpectedLook _ _ := unexpectedLook H
  reinterpretError _ _ := failAt (fun _ => rfl) (fun _ => rfl) fun s s' hr =>
    H.err hr (.unableToReinterpret _ _ _ _ (.inr ⟨rfl, rfl⟩))
  fail h := failAt (fun _ => rfl) (fun _ => rfl) fun s s' hr => H.err hr (by
    cases h with
    | getter h => exact .invalidGetterParams (.inl h)
    | setter h => exact .invalidSetterParams (.inl h)
    | nonStrict _ _ h => exact .nonStrict _ _ (.inl h)
    | redecl _ _ h => exact .redecl _ _ (.inl h))
  modC h := same (fun _ => rfl) <| modC H (by
    cases h with
    | covert => mod_ren
    | same h => cases h <;> mod_ren)
  inScope h hm := scope H h hm
  withLabel l h := withLabel H l h
  ifNotTolerant h := same (fun _ => rfl) (ifNotTolerant H fun s s' hr => empty (h s s' hr))
  ignoreNext := by
    refine same (fun _ => rfl) ?_
    intro s s' hr
    have := H.next hr
    unfold P.ignoreErr
    revert this
    generalize Ressa.nextItem s = r
    intro h
    cases r with
    | ok a t =>
      obtain ⟨a', t', h1, _, h2, h3⟩ := h
      rw [h1]; exact ⟨(), t', rfl, rfl, h2, by simp at *; omega⟩
    | err e t =>
      obtain ⟨e', t', h1, _, h2, h3⟩ := h
      rw [h1]; exact ⟨(), t', rfl, rfl, h2, by simp at *; omega⟩
    | _ => trivial
  expectCommaSep := by
    have h1 : S.rel false Eq (do if ← atPunct .comma then Ressa.skipItem else Pure.pure () : P Unit)
        (do if ← atPunct .comma then Ressa.skipItem else Pure.pure () : P Unit) :=
      bindE (lookIs H) fun _ => ite (fun _ => weakenD (skipItem H)) fun _ => pure rfl
    have h2 : S.rel false Eq (expectPunct .comma) (expectPunct .comma) := by
      unfold expectPunct
      exact weakenD (bindItem H fun _ _ _ hg => ite (fun _ => expectedTokenError H hg) fun _ =>
        pure rfl)
    intro _
    refine same (ρ := ρ) (fun (_ : Unit) => rfl) ?_
    intro s s' hr
    unfold Ressa.expectCommaSep
    rw [H.tolerant hr]
    split
    · exact h1 s s' hr
    · exact h2 s s' hr
  templateElement := by
    intro _
    unfold Ressa.templateElement
    refine bindItem H fun t sp sp' hg => ?_
    dsimp only
    split
    all_goals try
      (refine bind (getShaped H hg) fun w w' h => ?_
       obtain ⟨hw, ⟨mid, h1⟩, mid', h2⟩ := h
       refine ofSome (h1 ▸ cooked rfl rfl) (h2 ▸ cooked rfl rfl) (pure ?_)
       simp only [RQ, ren_simp, ← hw, h2, innerText]
       simp [List.dropLast_append_of_ne_nil])
    · exact expectedLook H
  regexLiteral := by
    unfold regexLiteral' notTarget
    refine bindE (modC H (by mod_ren)) fun _ => bindItem H fun t sp sp' hg => ?_
    dsimp only
    split
    · refine bind (shapedForOrEmpty H hg) fun w w' h => ?_
      obtain ⟨hw, ⟨p, f, rfl, h1⟩, p', f', rfl, h2⟩ := h
      have e := splitLastSlash_append (a := '/' :: p) h1
      have e' := splitLastSlash_append (a := '/' :: p') h2
      rw [List.cons_append] at e e'
      rw [e, e']
      have k : ∀ q : Txt, sliceB ('/' :: q) 1 (blen ('/' :: q)) = some q := fun q =>
        sliceB_iff.2 ⟨['/'], [], by simp, rfl, by simp⟩
      refine ofSome (k _) (k _) (pure ?_)
      show _ = Expr.literal (.regex (regexOf (ρ ('/' :: (p ++ '/' :: f)))))
      rw [← hw, regexOf_eq h2]
    · exact expectedLook H
  varIdent _ := varIdent H
  withGuard := by
    intro _
    refine same (ρ := ρ) (fun (_ : Unit) => rfl) ?_
    intro s s' hr
    show S.post false Eq s' (P.when (Ressa.readC (·.strict)) (tolerateError
        (.nonStrictFeatureInStrictContext s.curPos t!"with statements")) s)
        (P.when (Ressa.readC (·.strict)) (tolerateError
        (.nonStrictFeatureInStrictContext s'.curPos t!"with statements")) s')
    unfold P.when
    simp only [readC_bind]
    obtain ⟨o, ho⟩ := H.ctx hr
    rw [ho]
    dsimp only
    split
    · unfold tolerateError Ressa.ifNotTolerant
      rw [H.tolerant hr]
      split
      · exact ⟨(), s', rfl, rfl, hr, Nat.le_refl _⟩
      · exact ⟨_, s', rfl, H.err hr (.nonStrict _ _ (.inr ⟨rfl, rfl⟩)), hr, Nat.le_refl _⟩
    · exact ⟨(), s', rfl, rfl, hr, Nat.le_refl _⟩
  loopP hx ht hb := fun s s' hr => by
    subst hx
    exact loopN ht hb _ _ _ s s' hr (Nat.lt_succ_self _)

theorem recN_rel [W : Words ρ] : ∀ (c : Bool) (n), RStepRel S.judgement ρ c (recN n) full
  | _, 0 => by constructor <;> intros <;> exact diverge
  | _, n + 1 => by
    haveI := base H
    haveI := (recN_rel true n).closed
    rw [full_eq]
    exact step_n

theorem full_rel [W : Words ρ] (c : Bool) : RStepRel S.judgement ρ c full full where
  assign := ofFuel fun n => (recN_rel H c n).assign
  expression := ofFuel fun n => (recN_rel H c n).expression
  unary := ofFuel fun n => (recN_rel H c n).unary
  expo := ofFuel fun n => (recN_rel H c n).expo
  lhs := ofFuel fun n => (recN_rel H c n).lhs
  stmt := ofFuel fun n => (recN_rel H c n).stmt
  listItem := ofFuel fun n => (recN_rel H c n).listItem
  pattern k := ofFuel fun n => (recN_rel H c n).pattern k

theorem nextPart [W : Words ρ] : S.rel true (RQ ρ) nextPart nextPart := by
  haveI := base H
  haveI := (full_rel H true).closed
  unfold Ressa.nextPart P.and
  refine bindE (bindE (readC H fun _ _ _ => rfl) fun _ => ite (fun _ => lookIs H) fun _ => pure rfl)
    fun _ => ite (fun _ => ?_) fun _ => ?_
  · exact bindRT (directive_n (J := S.judgement) (R := full) (R' := full)) fun p =>
      bindE (modC H (by cases p <;> mod_ren)) fun _ => pure rfl
  · exact bindE (modC H (by mod_ren)) fun _ => (full_rel H true).listItem

theorem nextCall [W : Words ρ] : S.rel false (RQ ρ) Ressa.next Ressa.next := by
  unfold Ressa.next
  exact bindE (lookIs H) fun _ => ite (fun _ => pure rfl) fun _ =>
    weakenD (bindRT (nextPart H) fun _ => pure rfl)

theorem parseCall [W : Words ρ] : S.rel false (RQ ρ) Ressa.parse Ressa.parse := by
  haveI := base H
  unfold Ressa.parse
  refine bindR (ρ := ρ) ?_ fun _ => bindE (readModule H) fun _ => ite
    (fun _ => Twin.pure (by simp only [RQ, ren_simp])) fun _ =>
    Twin.pure (by simp only [RQ, ren_simp])
  exact nUntilP (J := S.judgement) (c := true) rfl (same (fun _ => rfl) (lookIs H)) fun _ =>
    bindRT (nextPart H) fun _ => pure (by simp only [RQ, ren_simp])

theorem exprCall [W : Words ρ] : S.rel false (RQ ρ) full.expression full.expression :=
  weakenD (full_rel H true).expression

/-- A session can be repeated on the other side. -/
theorem session [W : Words ρ] {place} (he : ∀ {e e'}, S.err e e' → ErrorKind place e e') {s rs s'}
    (h : Session s rs s') :
    ∀ t, S.R s t → ∃ rs' t', Session t rs' t' ∧ RepliesRen ρ place rs rs' ∧ S.R s' t' := by
  have okCase : ∀ {α : Type} [Ren α] {d : Bool} {m : P α} {a : α} {s s1 t}, S.rel d (RQ ρ) m m → S.R s t →
      m s = .ok a s1 → ∃ t1, m t = .ok (ren ρ a) t1 ∧ S.R s1 t1 := by
    intro α _ d m a s s1 t hm hr e
    have := e ▸ hm s t hr
    obtain ⟨_, t1, h1, rfl, h2, _⟩ := this
    exact ⟨t1, h1, h2⟩
  have errCase : ∀ {α : Type} [Ren α] {d : Bool} {m : P α} {e s s1 t}, S.rel d (RQ ρ) m m → S.R s t →
      m s = .err e s1 → ∃ e' t1, m t = .err e' t1 ∧ S.err e e' ∧ S.R s1 t1 := by
    intro α _ d m a s s1 t hm hr e
    have : S.post d (RQ ρ) t (.err a s1) (m t) := e ▸ hm s t hr
    obtain ⟨e', t1, h1, h2, h3, _⟩ := this
    exact ⟨e', t1, h1, h2, h3⟩
  induction h with
  | nil => exact fun t hr => ⟨[], t, .nil, .nil, hr⟩
  | nextOk h k ih =>
    intro t hr
    obtain ⟨t1, h1, h2⟩ := okCase (nextCall H) hr h
    obtain ⟨rs', t', k1, k2, k3⟩ := ih t1 h2
    exact ⟨_, t', .nextOk h1 k1, .cons (.nextOk _) k2, k3⟩
  | parseOk h k ih =>
    intro t hr
    obtain ⟨t1, h1, h2⟩ := okCase (parseCall H) hr h
    obtain ⟨rs', t', k1, k2, k3⟩ := ih t1 h2
    exact ⟨_, t', .parseOk h1 k1, .cons (.parseOk _) k2, k3⟩
  | exprOk h k ih =>
    intro t hr
    obtain ⟨t1, h1, h2⟩ := okCase (exprCall H) hr h
    obtain ⟨rs', t', k1, k2, k3⟩ := ih t1 h2
    exact ⟨_, t', .exprOk h1 k1, .cons (.exprOk _) k2, k3⟩
  | nextErr h k ih =>
    intro t hr
    obtain ⟨e', t1, h1, e0, h2⟩ := errCase (nextCall H) hr h
    obtain ⟨rs', t', k1, k2, k3⟩ := ih t1 h2
    exact ⟨_, t', .nextErr h1 k1, .cons (.nextErr (he e0)) k2, k3⟩
  | parseErr h k ih =>
    intro t hr
    obtain ⟨e', t1, h1, e0, h2⟩ := errCase (parseCall H) hr h
    obtain ⟨rs', t', k1, k2, k3⟩ := ih t1 h2
    exact ⟨_, t', .parseErr h1 k1, .cons (.parseErr (he e0)) k2, k3⟩
  | exprErr h k ih =>
    intro t hr
    obtain ⟨e', t1, h1, e0, h2⟩ := errCase (exprCall H) hr h
    obtain ⟨rs', t', k1, k2, k3⟩ := ih t1 h2
    exact ⟨_, t', .exprErr h1 k1, .cons (.exprErr (he e0)) k2, k3⟩

end RSim

end Ressa
