import Verif.Proof.ApiSafe
import Verif.Spec.Session
import Verif.Proof.Eval

/-!
# Simulations

Two runs of the parser from related states stay related: they return the same value or fail in
the same way, as long as the first run stays in the region where the relation makes sense.  The
region is left for good: `out` is kept by everything the parser does.
-/

namespace Ressa

/-- The errors that carry the position of the item read last. -/
inductive AtCur : (Position → Error) → Prop
  | op (t) : AtCur (.operationError · t)
  | redecl (t) : AtCur (.redecl · t)
  | reinterpret (a b) : AtCur (.unableToReinterpret · a b)
  | raw (t) : AtCur (.unexpectedToken · (.raw t))
  | nonStrict (t) : AtCur (.nonStrictFeatureInStrictContext · t)

/-- `atAsyncFunction` on a state. -/
theorem atAsyncFunction_eq (s : St) : atAsyncFunction s =
    match sliceB s.stream s.look.span.start s.look.span.stop with
    | none => .panic
    | some c =>
      if c == t!"async" then
        match s.rest.head? with
        | none => .ok false s
        | some t =>
          match getItemPosition s.lines t.item.span.start with
          | none => .panic
          | some p => .ok (s.lookPos.line == p.line && t.item.token.matchesKeyword .function) s
      else .ok false s := by
  cases h : sliceB s.stream s.look.span.start s.look.span.stop with
  | none =>
    have hs : streamSlice s.look s = .panic := by unfold streamSlice; rw [h]
    unfold atAsyncFunction atContextual Ressa.look
    rw [bind_def]
    simp only [get_bind]
    rw [bind_def, hs]
  | some c =>
    have hs : streamSlice s.look s = .ok c s := by unfold streamSlice; rw [h]
    have hc : atContextual t!"async" s = .ok (c == t!"async") s := by
      unfold atContextual Ressa.look
      simp only [get_bind]
      rw [bind_ok hs]
      rfl
    unfold atAsyncFunction
    rw [bind_ok hc]
    simp only
    split
    · unfold scanPeek Ressa.lookPos
      simp only [get_bind]
      cases s.rest.head? with
      | none => rfl
      | some t =>
        simp only [Option.map_some, get_bind]
        rw [bind_def]
        unfold positionOf
        cases getItemPosition s.lines t.item.span.start <;> rfl
    · rfl

/-- A relation between the states of two runs. -/
structure Sim where
  good : Item → Prop
  R : St → St → Prop
  out : St → Prop
  sameErr : Error → Error → Prop

namespace Sim

/-- The outcomes of two runs, the second of which started in `s'`. -/
def post (S : Sim) {α : Type} (d : Bool) (Q : α → Prop) (s' : St) : Res α → Res α → Prop
  | .ok a t, r => Q a ∧ (S.out t ∨ ∃ t', r = .ok a t' ∧ S.R t t' ∧ mu t' + one d ≤ mu s')
  | .err e t, r => S.out t ∨ ∃ e' t', r = .err e' t' ∧ S.sameErr e e' ∧ S.R t t' ∧ mu t' ≤ mu s'
  | .panic, _ => True
  | .diverge, _ => True

/-- The outcome of a run that has left the region. -/
def stay (S : Sim) {α : Type} (Q : α → Prop) : Res α → Prop
  | .ok a t => Q a ∧ S.out t
  | .err _ t => S.out t
  | .panic => True
  | .diverge => True

/-- The judgement of a simulation. -/
def judgement (S : Sim) : Judgement where
  good := S.good
  rel _ d Q m m' := (∀ s s', S.R s s' → S.post d Q s' (m s) (m' s')) ∧
    ∀ s, S.out s → S.stay Q (m s)

/-- The obligations on the primitives. -/
structure Ok (S : Sim) : Prop where
  errRefl e : S.sameErr e e
  look {s s'} : S.R s s' → s'.look = s.look ∧ S.good s.look
  lookOut {s} : S.out s → S.good s.look
  ctx {s s'} : S.R s s' → s'.ctx = s.ctx
  ctxMod {s s'} (c) : S.R s s' → S.R { s with ctx := c } { s' with ctx := c }
  ctxOut {s} (c) : S.out s → S.out { s with ctx := c }
  ext {s s'} : S.R s s' → s'.ext = s.ext
  tolerant {s s'} : S.R s s' → s'.tolerant = s.tolerant
  isModule {s s'} : S.R s s' → s'.isModule = s.isModule
  lookPos {s s'} : S.R s s' → s'.lookPos = s.lookPos
  cur {s s' k} : S.R s s' → AtCur k → S.sameErr (k s.curPos) (k s'.curPos)
  slice {s s' i} : S.R s s' → S.good i →
    sliceB s'.stream i.span.start i.span.stop = sliceB s.stream i.span.start i.span.stop
  pos {s s' i} : S.R s s' → S.good i →
    getItemPosition s'.lines i.span.start = getItemPosition s.lines i.span.start
  peek {s s'} : S.R s s' → peekSkipComments s'.rest = peekSkipComments s.rest
  async {s s'} : S.R s s' → S.post false Any s' (atAsyncFunction s) (atAsyncFunction s')
  next {s s'} : S.R s s' → S.post true S.good s' (nextItem s) (nextItem s')
  nextOut {s} : S.out s → S.stay S.good (nextItem s)

section
variable {S : Sim}

/-- `J.rel` of a simulation. -/
abbrev rel (S : Sim) {α : Type} (d : Bool) (Q : α → Prop) (m m' : P α) : Prop :=
  S.judgement.rel true d Q m m'

theorem post_mono {α} {d : Bool} {Q Q' : α → Prop} {s' r r'} (hq : ∀ a, Q a → Q' a)
    (h : S.post d Q s' r r') : S.post d Q' s' r r' := by
  cases r with
  | ok a t => exact ⟨hq a h.1, h.2⟩
  | _ => exact h

theorem stay_mono {α} {Q Q' : α → Prop} {r} (hq : ∀ a, Q a → Q' a)
    (h : S.stay Q r) : S.stay Q' r := by
  cases r with
  | ok a t => exact ⟨hq a h.1, h.2⟩
  | _ => exact h

theorem stay_post {α} {d : Bool} {Q : α → Prop} {s' r r'} (h : S.stay Q r) :
    S.post d Q s' r r' := by
  cases r with
  | ok a t => exact ⟨h.1, .inl h.2⟩
  | err e t => exact .inl h
  | _ => trivial

theorem mono {α d} {Q Q' : α → Prop} {m m' : P α} (hq : ∀ a, Q a → Q' a)
    (h : S.rel d Q m m') : S.rel d Q' m m' :=
  ⟨fun s s' hr => post_mono hq (h.1 s s' hr), fun s ho => stay_mono hq (h.2 s ho)⟩

theorem post_d {α} {Q : α → Prop} {s' r r'} {d : Bool} (h : S.post true Q s' r r') :
    S.post d Q s' r r' := by
  cases r with
  | ok a t =>
    refine ⟨h.1, h.2.imp id fun ⟨t', h1, h2, h3⟩ => ⟨t', h1, h2, ?_⟩⟩
    cases d <;> simp at * <;> omega
  | _ => exact h

theorem weakenD {α} {Q : α → Prop} {m m' : P α} {d : Bool} (h : S.rel true Q m m') :
    S.rel d Q m m' :=
  ⟨fun s s' hr => post_d (h.1 s s' hr), h.2⟩

theorem post_bind {α β} {d1 d2 d : Bool} {Q : α → Prop} {Q' : β → Prop} {m m' : P α}
    {f f' : α → P β} {s s'} (h : S.post d1 Q s' (m s) (m' s'))
    (k : ∀ a t, Q a → S.out t → S.stay Q' (f a t))
    (k' : ∀ a t t', Q a → S.R t t' → S.post d2 Q' t' (f a t) (f' a t'))
    (hd : one d ≤ one d1 + one d2) : S.post d Q' s' ((m >>= f) s) ((m' >>= f') s') := by
  rw [bind_def, bind_def]
  cases hm : m s with
  | ok a t =>
    rw [hm] at h
    obtain ⟨hq, ho | ⟨t', e, hr, hmu⟩⟩ := h
    · exact stay_post (k a t hq ho)
    · have := k' a t t' hq hr
      rw [e]
      simp only
      cases hf : f a t with
      | ok b u =>
        rw [hf] at this
        refine ⟨this.1, this.2.imp id fun ⟨u', e', hr', hmu'⟩ => ⟨u', e', hr', by omega⟩⟩
      | err e u =>
        rw [hf] at this
        exact this.imp id fun ⟨e', u', h1, h2, h3, h4⟩ => ⟨e', u', h1, h2, h3, by omega⟩
      | _ => trivial
  | err e t =>
    rw [hm] at h
    rcases h with h | ⟨e', t', h1, h2, h3, h4⟩
    · exact .inl h
    · rw [h1]; exact .inr ⟨e', t', rfl, h2, h3, h4⟩
  | _ => trivial

theorem stay_bind {α β} {Q : α → Prop} {Q' : β → Prop} {m : P α} {f : α → P β} {s}
    (h : S.stay Q (m s)) (k : ∀ a t, Q a → S.out t → S.stay Q' (f a t)) :
    S.stay Q' ((m >>= f) s) := by
  rw [bind_def]
  cases hm : m s with
  | ok a t => rw [hm] at h; exact k a t h.1 h.2
  | err e t => rw [hm] at h; exact h
  | _ => trivial

theorem bindD {α β} {d1 d2 d : Bool} {Q : α → Prop} {Q' : β → Prop} {m m' : P α}
    {f f' : α → P β} (h : S.rel d1 Q m m') (k : ∀ a, Q a → S.rel d2 Q' (f a) (f' a))
    (hd : one d ≤ one d1 + one d2) : S.rel d Q' (m >>= f) (m' >>= f') :=
  ⟨fun s s' hr => post_bind (h.1 s s' hr) (fun a t hq ho => (k a hq).2 t ho)
      (fun a t t' hq hr => (k a hq).1 t t' hr) hd,
    fun s ho => stay_bind (h.2 s ho) fun a t hq ho => (k a hq).2 t ho⟩

theorem bind {α β} {d : Bool} {Q : α → Prop} {Q' : β → Prop} {m m' : P α}
    {f f' : α → P β} (h : S.rel false Q m m') (k : ∀ a, Q a → S.rel d Q' (f a) (f' a)) :
    S.rel d Q' (m >>= f) (m' >>= f') := bindD h k (by simp)

theorem bindT {α β} {Q : α → Prop} {Q' : β → Prop} {m m' : P α}
    {f f' : α → P β} (h : S.rel true Q m m') (k : ∀ a, Q a → S.rel false Q' (f a) (f' a)) :
    S.rel true Q' (m >>= f) (m' >>= f') := bindD h k (by simp)

theorem pure {α} {Q : α → Prop} {a : α} (h : Q a) :
    S.rel false Q (Pure.pure a) (Pure.pure a) :=
  ⟨fun _ s' hr => ⟨h, .inr ⟨s', rfl, hr, Nat.le_refl _⟩⟩, fun _ ho => ⟨h, ho⟩⟩

theorem ite {α} {d : Bool} {Q : α → Prop} {p : Prop} [Decidable p] {a b a' b' : P α}
    (h : p → S.rel d Q a a') (k : ¬p → S.rel d Q b b') :
    S.rel d Q (if p then a else b) (if p then a' else b') := by
  by_cases hp : p
  · rw [if_pos hp, if_pos hp]; exact h hp
  · rw [if_neg hp, if_neg hp]; exact k hp

theorem get {α} {h : St → α} (hh : ∀ s s', S.R s s' → h s' = h s) :
    S.rel false Any (P.get h) (P.get h) :=
  ⟨fun s s' hr => ⟨trivial, .inr ⟨s', by rw [get_run, hh s s' hr], hr, Nat.le_refl _⟩⟩,
    fun _ ho => ⟨trivial, ho⟩⟩

theorem ofOption {α} {o : Option α} : S.rel false Any (P.ofOption o) (P.ofOption o) := by
  cases o with
  | none => exact ⟨fun _ _ _ => trivial, fun _ _ => trivial⟩
  | some a => exact pure (S := S) (a := a) trivial

/-- A failure in the current state. -/
theorem fail {α} {d : Bool} {Q : α → Prop} {m m' : P α} {k k' : St → Error}
    (h : ∀ s, m s = .err (k s) s) (h' : ∀ s, m' s = .err (k' s) s)
    (he : ∀ s s', S.R s s' → S.sameErr (k s) (k' s')) : S.rel d Q m m' :=
  ⟨fun s s' hr => by
      rw [h, h']; exact .inr ⟨_, _, rfl, he s s' hr, hr, Nat.le_refl _⟩,
    fun s ho => by rw [h]; exact ho⟩

theorem loopN {σ α} {Q : α → Prop} {test test' : σ → P (Option α)} {body body'}
    (ht : ∀ x, S.rel false (fun o => ∀ a, o = some a → Q a) (test x) (test' x))
    (hb : ∀ x, S.rel true (fun r => ∀ a, r = .inr a → Q a) (body x) (body' x)) :
    ∀ n x, (∀ n' s s', S.R s s' → mu s' < n' →
        S.post false Q s' (Ressa.loopN n test body x s) (Ressa.loopN n' test' body' x s')) ∧
      ∀ s, S.out s → S.stay Q (Ressa.loopN n test body x s)
  | 0, x => ⟨fun _ _ _ _ _ => trivial, fun _ _ => trivial⟩
  | n + 1, x => by
    have ih := loopN ht hb n
    have hs : ∀ s, S.out s → S.stay Q (Ressa.loopN (n + 1) test body x s) := by
      intro s ho
      unfold Ressa.loopN
      refine stay_bind ((ht x).2 s ho) fun o t hq ho => ?_
      cases o with
      | some a => exact ⟨hq a rfl, ho⟩
      | none =>
        refine stay_bind ((hb x).2 t ho) fun r u hq ho => ?_
        cases r with
        | inl x' => exact (ih x').2 u ho
        | inr a => exact ⟨hq a rfl, ho⟩
    refine ⟨fun n' s s' hr hmu => ?_, hs⟩
    cases n' with
    | zero => omega
    | succ n' =>
      have h1 := (ht x).1 s s' hr
      unfold Ressa.loopN
      rw [bind_def, bind_def]
      cases hm : test x s with
      | err e t =>
        rw [hm] at h1
        rcases h1 with h | ⟨e', t', h1, h2, h3, h4⟩
        · exact .inl h
        · rw [h1]; exact .inr ⟨e', t', rfl, h2, h3, h4⟩
      | panic => trivial
      | diverge => trivial
      | ok o t =>
        rw [hm] at h1
        have hout : ∀ (o : Option α), (∀ a, o = some a → Q a) → S.out t → S.stay Q ((match o with
            | some a => Pure.pure a
            | none => do
              match ← body x with
              | .inl x' => Ressa.loopN n test body x'
              | .inr a => Pure.pure a : P α) t) := by
          intro o hq ho
          cases o with
          | some a => exact ⟨hq a rfl, ho⟩
          | none =>
            refine stay_bind ((hb x).2 t ho) fun r u hq ho => ?_
            cases r with
            | inl x' => exact (ih x').2 u ho
            | inr a => exact ⟨hq a rfl, ho⟩
        obtain ⟨hq, ho | ⟨t', e, hr', hmu'⟩⟩ := h1
        · exact stay_post (hout o hq ho)
        · rw [e]
          simp only
          cases o with
          | some a => exact ⟨hq a rfl, .inr ⟨t', rfl, hr', by simpa using hmu'⟩⟩
          | none =>
            simp only
            have h2 := (hb x).1 t t' hr'
            rw [bind_def, bind_def]
            simp only [one_false, Nat.add_zero] at hmu'
            cases hbm : body x t with
            | err e t =>
              rw [hbm] at h2
              rcases h2 with h | ⟨e', t', h1, h2, h3, h4⟩
              · exact .inl h
              · rw [h1]; exact .inr ⟨e', t', rfl, h2, h3, by omega⟩
            | panic => trivial
            | diverge => trivial
            | ok r u =>
              rw [hbm] at h2
              obtain ⟨hq, ho | ⟨u', e, hr'', hmu''⟩⟩ := h2
              · refine stay_post ?_
                cases r with
                | inl x' => exact (ih x').2 u ho
                | inr a => exact ⟨hq a rfl, ho⟩
              · rw [e]
                simp only [one_true] at hmu''
                cases r with
                | inr a => exact ⟨hq a rfl, .inr ⟨u', rfl, hr'', by simp; omega⟩⟩
                | inl x' =>
                  have := (ih x').1 n' u u' hr'' (by omega)
                  simp only
                  revert this
                  generalize Ressa.loopN n test body x' u = r
                  intro h
                  cases r with
                  | ok b v =>
                    exact ⟨h.1, h.2.imp id fun ⟨v', e', hr', hm⟩ => ⟨v', e', hr', by omega⟩⟩
                  | err e v =>
                    exact h.imp id fun ⟨e', v', h1, h2, h3, h4⟩ => ⟨e', v', h1, h2, h3, by omega⟩
                  | _ => trivial

variable (H : Ok S)
include H

theorem modC {f} : S.rel false Any (P.modC f) (P.modC f) :=
  ⟨fun s s' hr => by
      have := H.ctxMod (f s.ctx) hr
      refine ⟨trivial, .inr ⟨{ s' with ctx := f s'.ctx }, rfl, ?_, Nat.le_refl _⟩⟩
      rw [H.ctx hr]
      exact this,
    fun _ ho => ⟨trivial, H.ctxOut _ ho⟩⟩

theorem nextItem : S.rel true S.good nextItem nextItem :=
  ⟨fun _ _ hr => H.next hr, fun _ ho => H.nextOut ho⟩

theorem streamSlice {i} (hg : S.good i) : S.rel false Any (streamSlice i) (streamSlice i) := by
  refine ⟨fun s s' hr => ?_, fun s ho => ?_⟩
  · unfold Ressa.streamSlice
    rw [H.slice hr hg]
    cases sliceB s.stream i.span.start i.span.stop with
    | none => trivial
    | some t => exact ⟨trivial, .inr ⟨s', rfl, hr, Nat.le_refl _⟩⟩
  · unfold Ressa.streamSlice
    split
    · exact ⟨trivial, ho⟩
    · trivial

theorem getString {i} (hg : S.good i) : S.rel false Any (getString i) (getString i) := by
  refine ⟨fun s s' hr => ?_, fun s ho => ?_⟩
  · unfold Ressa.getString
    rw [H.slice hr hg]
    cases sliceB s.stream i.span.start i.span.stop with
    | none => exact .inr ⟨_, _, rfl, H.cur hr (.op _), hr, Nat.le_refl _⟩
    | some t => exact ⟨trivial, .inr ⟨s', rfl, hr, Nat.le_refl _⟩⟩
  · unfold Ressa.getString
    split
    · exact ⟨trivial, ho⟩
    · exact ho

theorem stringForOrEmpty {i} (hg : S.good i) :
    S.rel false Any (stringForOrEmpty i) (stringForOrEmpty i) :=
  get fun s s' hr => by rw [H.slice hr hg]

theorem expectedTokenError {α} {d : Bool} {Q : α → Prop} {i e} (hg : S.good i) :
    S.rel d Q (expectedTokenError i e) (expectedTokenError i e) := by
  refine ⟨fun s s' hr => ?_, fun s ho => ?_⟩
  · unfold Ressa.expectedTokenError
    rw [H.pos hr hg]
    cases getItemPosition s.lines i.span.start with
    | none => trivial
    | some t => exact .inr ⟨_, _, rfl, H.errRefl _, hr, Nat.le_refl _⟩
  · unfold Ressa.expectedTokenError
    split
    · trivial
    · exact ho

theorem unexpectedTokenError {α} {d : Bool} {Q : α → Prop} {i e} (hg : S.good i) :
    S.rel d Q (unexpectedTokenError i e) (unexpectedTokenError i e) := by
  refine ⟨fun s s' hr => ?_, fun s ho => ?_⟩
  · unfold Ressa.unexpectedTokenError
    rw [H.pos hr hg, H.slice hr hg]
    cases getItemPosition s.lines i.span.start with
    | none => trivial
    | some t => exact .inr ⟨_, _, rfl, H.errRefl _, hr, Nat.le_refl _⟩
  · unfold Ressa.unexpectedTokenError
    split
    · trivial
    · exact ho

theorem ofLook {α} {d : Bool} {Q : α → Prop} {f : Item → P α}
    (h : ∀ i, S.good i → S.rel d Q (f i) (f i)) :
    S.rel d Q (fun s => f s.look s) (fun s => f s.look s) := by
  refine ⟨fun s s' hr => ?_, fun s ho => ?_⟩
  · obtain ⟨h1, h2⟩ := H.look hr
    show S.post d Q s' (f s.look s) (f s'.look s')
    rw [h1]
    exact (h _ h2).1 s s' hr
  · exact (h _ (H.lookOut ho)).2 s ho

theorem expectedLook {α} {d : Bool} {Q : α → Prop} {e} :
    S.rel d Q (expectedLook e) (expectedLook e) :=
  ofLook H fun _ hg => expectedTokenError H hg

theorem unexpectedLook {α} {d : Bool} {Q : α → Prop} {e} :
    S.rel d Q (unexpectedLook e) (unexpectedLook e) :=
  ofLook H fun _ hg => unexpectedTokenError H hg

theorem look : S.rel false S.good look look := by
  refine ⟨fun s s' hr => ?_, fun s ho => ?_⟩
  · obtain ⟨h1, h2⟩ := H.look hr
    exact ⟨h2, .inr ⟨s', by unfold Ressa.look; rw [get_run, h1], hr, Nat.le_refl _⟩⟩
  · exact ⟨H.lookOut ho, ho⟩

theorem readC {α} {f : Ctx → α} : S.rel false Any (readC f) (readC f) :=
  get fun s s' hr => by rw [H.ctx hr]

theorem readModule : S.rel false Any readModule readModule :=
  get fun s s' hr => by rw [H.isModule hr]

theorem lookIs {f : Token → Bool} : S.rel false Any (lookIs f) (lookIs f) :=
  get fun s s' hr => by rw [(H.look hr).1]

theorem isStrictReservedTok {t} :
    S.rel false Any (isStrictReservedTok t) (isStrictReservedTok t) :=
  get fun s s' hr => by rw [H.ext hr]

theorem ifNotTolerant {m m' : P Empty} (h : S.rel false Any m m') :
    S.rel false Any (ifNotTolerant m) (ifNotTolerant m') := by
  refine ⟨fun s s' hr => ?_, fun s ho => ?_⟩
  · unfold Ressa.ifNotTolerant
    rw [H.tolerant hr]
    split
    · exact ⟨trivial, .inr ⟨s', rfl, hr, Nat.le_refl _⟩⟩
    · have := h.1 s s' hr
      revert this
      generalize m s = r
      intro h
      cases r with
      | ok a t => exact nomatch a
      | err e t =>
        rcases h with h | ⟨e', t', h1, h2, h3, h4⟩
        · exact .inl h
        · rw [h1]; exact .inr ⟨e', t', rfl, h2, h3, h4⟩
      | _ => trivial
  · unfold Ressa.ifNotTolerant
    split
    · exact ⟨trivial, ho⟩
    · have := h.2 s ho
      revert this
      generalize m s = r
      intro h
      cases r with
      | ok a t => exact nomatch a
      | err e t => exact h
      | _ => trivial

theorem varIdentText {i} (hg : S.good i) :
    S.rel false Any (varIdentText i) (varIdentText i) := by
  unfold Ressa.varIdentText
  split
  · exact stringForOrEmpty H hg
  · exact pure trivial
  · exact expectedTokenError H hg

theorem varIdent {v} : S.rel true Any (varIdent v) (varIdent v) := by
  unfold Ressa.varIdent
  refine bindT (nextItem H) fun i hg => ite (fun _ => ?_) fun _ => ite (fun _ => ?_) fun _ => ?_
  · exact bind (readC H) fun _ _ => ite (fun _ => expectedTokenError H hg) fun _ =>
      varIdentText H hg
  · refine bind (Q := Any) ?_ fun _ _ => ite (fun _ => expectedTokenError H hg) fun _ =>
      bind (readC H) fun _ _ => ite (fun _ => expectedTokenError H hg) fun _ => varIdentText H hg
    exact bind (readC H) fun _ _ => ite (fun _ => isStrictReservedTok H) fun _ => pure trivial
  · refine bind (Q := Any) ?_ fun _ _ => ite (fun _ => expectedTokenError H hg) fun _ =>
      varIdentText H hg
    refine bind (Q := Any) ?_ fun _ _ => ite (fun _ => ?_) fun _ => pure trivial
    · exact bind (readModule H) fun _ _ => ite (fun _ => pure trivial) fun _ => readC H
    · exact bind (streamSlice H hg) fun _ _ => pure trivial

theorem skipItem : S.rel true Any skipItem skipItem :=
  bindT (nextItem H) fun _ _ => pure trivial

/-- The primitives preserve the judgement. -/
theorem base : Base S.judgement where
  weakenD h := weakenD h
  weakenQ hq h := mono hq h
  pure h := pure h
  bindT h k := bindT h k
  bindF h k := bind h k
  nextItem := nextItem H
  look := look H
  readC _ := readC H
  lookTok := get fun s s' hr => by rw [(H.look hr).1]
  lookIs _ := lookIs H
  lookPos := get fun s s' hr => H.lookPos hr
  isRestrictedTok hg := get fun s s' hr => by rw [H.ext hr, H.slice hr hg]
  isStrictReservedTok _ := isStrictReservedTok H
  isLiteralTok _ := get fun s s' hr => by rw [H.ext hr]
  atImportCall := get fun s s' hr => by rw [(H.look hr).1, H.peek hr]
  atLexicalDecl := get fun s s' hr => by rw [H.peek hr]
  atAsyncFunction := by
    refine ⟨fun s s' hr => H.async hr, fun s ho => ?_⟩
    unfold atAsyncFunction atContextual
    refine stay_bind (Q := Any) ?_ fun b t _ ho => ?_
    · exact (bind (look H) (Q' := Any) fun _ hg =>
        bind (streamSlice H hg) fun _ _ => pure trivial).2 s ho
    · split
      · unfold scanPeek Ressa.lookPos
        simp only [get_bind]
        cases t.rest.head?.map (·.item) with
        | none => exact ⟨trivial, ho⟩
        | some i =>
          simp only [get_bind]
          refine stay_bind (Q := Any) ?_ fun _ _ _ ho => ⟨trivial, ho⟩
          unfold positionOf
          split
          · exact ⟨trivial, ho⟩
          · trivial
      · exact ⟨trivial, ho⟩
  streamSlice hg := streamSlice H hg
  getString hg := getString H hg
  stringForOrEmpty hg := stringForOrEmpty H hg
  expectedTokenError _ hg := expectedTokenError H hg
  unexpectedTokenError _ hg := unexpectedTokenError H hg
  expectedLook _ := expectedLook H
  unexpectedLook _ := unexpectedLook H
  reinterpretError := fail (fun _ => rfl) (fun _ => rfl) fun s s' hr => H.cur hr (.reinterpret _ _)
  fail _ := fail (fun _ => rfl) (fun _ => rfl) fun s s' hr => H.errRefl _
  modC _ := modC H
  inScope {α c d Q set restore m m'} _ h :=
    bind (readC H) fun _ _ => bind (modC H) fun _ _ => bindD h (fun a ha =>
      bind (modC H) fun _ _ => pure ha) (by simp)
  withLabel _ h := bind (readC H) fun _ _ =>
    ite (fun _ => fail (fun _ => rfl) (fun _ => rfl) fun s s' hr => H.cur hr (.redecl _)) fun _ =>
      bind (modC H) fun _ _ => bindD h (fun a ha => bind (modC H) fun _ _ => pure ha) (by simp)
  ifNotTolerant _ h := ifNotTolerant H h
  ignoreNext := by
    refine ⟨fun s s' hr => ?_, fun s ho => ?_⟩
    · have := H.next hr
      unfold P.ignoreErr
      revert this
      generalize Ressa.nextItem s = r
      intro h
      cases r with
      | ok a t =>
        rcases h.2 with h | ⟨t', h1, h2, h3⟩
        · exact ⟨trivial, .inl h⟩
        · rw [h1]; exact ⟨trivial, .inr ⟨t', rfl, h2, by simp at *; omega⟩⟩
      | err e t =>
        rcases h with h | ⟨e', t', h1, _, h2, h3⟩
        · exact ⟨trivial, .inl h⟩
        · rw [h1]; exact ⟨trivial, .inr ⟨t', rfl, h2, by simp at *; omega⟩⟩
      | _ => trivial
    · have := H.nextOut ho
      unfold P.ignoreErr
      revert this
      generalize Ressa.nextItem s = r
      intro h
      cases r with
      | ok a t => exact ⟨trivial, h.2⟩
      | err e t => exact ⟨trivial, h⟩
      | _ => trivial
  expectCommaSep := by
    have h1 : S.rel false Any (do if ← atPunct .comma then Ressa.skipItem else Pure.pure () : P Unit)
        (do if ← atPunct .comma then Ressa.skipItem else Pure.pure () : P Unit) :=
      bind (lookIs H) fun _ _ => ite (fun _ => weakenD (skipItem H)) fun _ => pure trivial
    have h2 : S.rel false Any (expectPunct .comma) (expectPunct .comma) := by
      unfold expectPunct
      exact weakenD (bindT (nextItem H) fun _ hg => ite (fun _ => expectedTokenError H hg) fun _ =>
        pure trivial)
    intro _
    refine ⟨fun s s' hr => ?_, fun s ho => ?_⟩
    · unfold Ressa.expectCommaSep
      rw [H.tolerant hr]
      split
      · exact h1.1 s s' hr
      · exact h2.1 s s' hr
    · unfold Ressa.expectCommaSep
      split
      · exact h1.2 s ho
      · exact h2.2 s ho
  templateElement := by
    unfold Ressa.templateElement
    refine bindT (nextItem H) fun i hg => ?_
    split
    · exact bind (getString H hg) fun _ _ => bind ofOption fun _ _ => pure trivial
    · exact bind (getString H hg) fun _ _ => bind ofOption fun _ _ => pure trivial
    · exact bind (getString H hg) fun _ _ => bind ofOption fun _ _ => pure trivial
    · exact bind (getString H hg) fun _ _ => bind ofOption fun _ _ => pure trivial
    · exact expectedLook H
  regexLiteral := by
    unfold regexLiteral' notTarget
    refine bind (modC H) fun _ _ => bindT (nextItem H) fun i hg => ?_
    split
    · refine bind (stringForOrEmpty H hg) fun raw _ => ?_
      split
      · exact fail (fun _ => rfl) (fun _ => rfl) fun s s' hr => H.cur hr (.raw _)
      · exact bind ofOption fun _ _ => pure trivial
    · exact expectedLook H
  varIdent _ := varIdent H
  withGuard := by
    have h : S.rel false Any (fun s => P.when (Ressa.readC (·.strict)) (tolerateError
        (.nonStrictFeatureInStrictContext s.curPos t!"with statements")) s)
        (fun s => P.when (Ressa.readC (·.strict)) (tolerateError
        (.nonStrictFeatureInStrictContext s.curPos t!"with statements")) s) := by
      refine ⟨fun s s' hr => ?_, fun s ho => ?_⟩
      · unfold P.when
        simp only [readC_bind]
        rw [H.ctx hr]
        split
        · unfold tolerateError Ressa.ifNotTolerant
          rw [H.tolerant hr]
          split
          · exact ⟨trivial, .inr ⟨s', rfl, hr, Nat.le_refl _⟩⟩
          · exact .inr ⟨_, s', rfl, H.cur hr (.nonStrict _), hr, Nat.le_refl _⟩
        · exact ⟨trivial, .inr ⟨s', rfl, hr, Nat.le_refl _⟩⟩
      · unfold P.when
        simp only [readC_bind]
        split
        · unfold tolerateError Ressa.ifNotTolerant
          split
          · exact ⟨trivial, ho⟩
          · exact ho
        · exact ⟨trivial, ho⟩
    intro _
    exact h
  loopP ht hb := ⟨fun s s' hr => (loopN ht hb _ _).1 _ s s' hr (Nat.lt_succ_self _),
    fun s ho => (loopN ht hb _ _).2 s ho⟩

omit H in
theorem diverge {α : Type} {d : Bool} {Q : α → Prop} {m' : P α} :
    S.rel d Q (fun _ => .diverge) m' := ⟨fun _ _ _ => trivial, fun _ _ => trivial⟩

theorem recN_rel : ∀ (c : Bool) (n), StepRel S.judgement c (recN n) full
  | _, 0 => by constructor <;> intros <;> exact diverge
  | _, n + 1 => by
    haveI := base H
    haveI := (recN_rel true n).closed
    rw [full_eq]
    exact step_j

omit H in
theorem ofFuel {α : Type} {d : Bool} {Q : α → Prop} {F : Nat → P α} {m' : P α}
    (h : ∀ n, S.rel d Q (F n) m') : S.rel d Q (fun s => F (mu s + 1) s) m' :=
  ⟨fun s s' hr => (h _).1 s s' hr, fun s ho => (h _).2 s ho⟩

theorem full_rel (c : Bool) : StepRel S.judgement c full full where
  assign := ofFuel fun n => (recN_rel H c n).assign
  expression := ofFuel fun n => (recN_rel H c n).expression
  unary := ofFuel fun n => (recN_rel H c n).unary
  expo := ofFuel fun n => (recN_rel H c n).expo
  lhs := ofFuel fun n => (recN_rel H c n).lhs
  stmt := ofFuel fun n => (recN_rel H c n).stmt
  listItem := ofFuel fun n => (recN_rel H c n).listItem
  pattern k := ofFuel fun n => (recN_rel H c n).pattern k

theorem nextPart : S.rel true Any nextPart nextPart := by
  haveI := base H
  haveI := (full_rel H true).closed
  unfold Ressa.nextPart P.and
  refine bind (Q := Any) (bind (readC H) fun _ _ => ite (fun _ => lookIs H) fun _ => pure trivial)
    fun _ _ => ite (fun _ => ?_) fun _ => ?_
  · exact bindT (directive_j (J := S.judgement) (R := full) (R' := full)) fun _ _ =>
      bind (modC H) fun _ _ => pure trivial
  · exact bind (modC H) fun _ _ => (full_rel H true).listItem

theorem nextCall : S.rel false Any Ressa.next Ressa.next := by
  unfold Ressa.next
  exact bind (lookIs H) fun _ _ => ite (fun _ => pure trivial) fun _ =>
    weakenD (bindT (nextPart H) fun _ _ => pure trivial)

theorem parseCall : S.rel false Any Ressa.parse Ressa.parse := by
  haveI := base H
  unfold Ressa.parse
  refine bind (Q := Any) ?_ fun _ _ => bind (readModule H) fun _ _ =>
    ite (fun _ => pure trivial) fun _ => pure trivial
  exact jUntilP (J := S.judgement) (c := true) (lookIs H) fun _ =>
    bindT (nextPart H) fun _ _ => pure trivial

theorem exprCall : S.rel false Any full.expression full.expression :=
  weakenD (full_rel H true).expression

/-- Two replies agree up to `sameErr`. -/
inductive Same (S : Sim) : Reply → Reply → Prop
  | nextOk (o) : Same S (.nextOk o) (.nextOk o)
  | parseOk (p) : Same S (.parseOk p) (.parseOk p)
  | exprOk (x) : Same S (.exprOk x) (.exprOk x)
  | nextErr {e e'} : S.sameErr e e' → Same S (.nextErr e) (.nextErr e')
  | parseErr {e e'} : S.sameErr e e' → Same S (.parseErr e) (.parseErr e')
  | exprErr {e e'} : S.sameErr e e' → Same S (.exprErr e) (.exprErr e')

/-- Two lists of replies agree up to `sameErr`. -/
inductive Sames (S : Sim) : List Reply → List Reply → Prop
  | nil : Sames S [] []
  | cons {r r' rs rs'} : Same S r r' → Sames S rs rs' → Sames S (r :: rs) (r' :: rs')

/-- What has left the region does not come back. -/
theorem session_out {s rs s'} (h : Session s rs s') (ho : S.out s) : S.out s' := by
  induction h with
  | nil => exact ho
  | nextOk h _ ih => exact ih (h ▸ (nextCall H).2 _ ho).2
  | nextErr h _ ih => exact ih (show S.stay Any (.err _ _) from h ▸ (nextCall H).2 _ ho)
  | parseOk h _ ih => exact ih (h ▸ (parseCall H).2 _ ho).2
  | parseErr h _ ih => exact ih (show S.stay Any (.err _ _) from h ▸ (parseCall H).2 _ ho)
  | exprOk h _ ih => exact ih (h ▸ (exprCall H).2 _ ho).2
  | exprErr h _ ih => exact ih (show S.stay Any (.err _ _) from h ▸ (exprCall H).2 _ ho)

/-- A session that stays in the region can be repeated on the other side. -/
theorem session {s rs s'} (h : Session s rs s') (hn : ¬ S.out s') :
    ∀ t, S.R s t → ∃ rs' t', Session t rs' t' ∧ Sames S rs rs' ∧ S.R s' t' := by
  have okCase : ∀ {α : Type} {d : Bool} {m : P α} {a : α} {s s1 t}, S.rel d Any m m → S.R s t →
      m s = .ok a s1 → ¬ S.out s1 → ∃ t1, m t = .ok a t1 ∧ S.R s1 t1 := by
    intro α d m a s s1 t hm hr e hn
    have := e ▸ hm.1 s t hr
    obtain ⟨_, ho | ⟨t1, h1, h2, _⟩⟩ := this
    · exact absurd ho hn
    · exact ⟨t1, h1, h2⟩
  have errCase : ∀ {α : Type} {d : Bool} {m : P α} {e s s1 t}, S.rel d Any m m → S.R s t →
      m s = .err e s1 → ¬ S.out s1 → ∃ e' t1, m t = .err e' t1 ∧ S.sameErr e e' ∧ S.R s1 t1 := by
    intro α d m a s s1 t hm hr e hn
    have : S.post d Any t (.err a s1) (m t) := e ▸ hm.1 s t hr
    obtain ho | ⟨e', t1, h1, h2, h3, _⟩ := this
    · exact absurd ho hn
    · exact ⟨e', t1, h1, h2, h3⟩
  induction h with
  | nil => exact fun t hr => ⟨[], t, .nil, .nil, hr⟩
  | nextOk h k ih =>
    intro t hr
    obtain ⟨t1, h1, h2⟩ := okCase (nextCall H) hr h fun ho => hn (session_out H k ho)
    obtain ⟨rs', t', k1, k2, k3⟩ := ih hn t1 h2
    exact ⟨_, t', .nextOk h1 k1, .cons (.nextOk _) k2, k3⟩
  | parseOk h k ih =>
    intro t hr
    obtain ⟨t1, h1, h2⟩ := okCase (parseCall H) hr h fun ho => hn (session_out H k ho)
    obtain ⟨rs', t', k1, k2, k3⟩ := ih hn t1 h2
    exact ⟨_, t', .parseOk h1 k1, .cons (.parseOk _) k2, k3⟩
  | exprOk h k ih =>
    intro t hr
    obtain ⟨t1, h1, h2⟩ := okCase (exprCall H) hr h fun ho => hn (session_out H k ho)
    obtain ⟨rs', t', k1, k2, k3⟩ := ih hn t1 h2
    exact ⟨_, t', .exprOk h1 k1, .cons (.exprOk _) k2, k3⟩
  | nextErr h k ih =>
    intro t hr
    obtain ⟨e', t1, h1, he, h2⟩ := errCase (nextCall H) hr h fun ho => hn (session_out H k ho)
    obtain ⟨rs', t', k1, k2, k3⟩ := ih hn t1 h2
    exact ⟨_, t', .nextErr h1 k1, .cons (.nextErr he) k2, k3⟩
  | parseErr h k ih =>
    intro t hr
    obtain ⟨e', t1, h1, he, h2⟩ := errCase (parseCall H) hr h fun ho => hn (session_out H k ho)
    obtain ⟨rs', t', k1, k2, k3⟩ := ih hn t1 h2
    exact ⟨_, t', .parseErr h1 k1, .cons (.parseErr he) k2, k3⟩
  | exprErr h k ih =>
    intro t hr
    obtain ⟨e', t1, h1, he, h2⟩ := errCase (exprCall H) hr h fun ho => hn (session_out H k ho)
    obtain ⟨rs', t', k1, k2, k3⟩ := ih hn t1 h2
    exact ⟨_, t', .exprErr h1 k1, .cons (.exprErr he) k2, k3⟩

end

end Sim

end Ressa
