import Verif.Proof.TwinSim
import Verif.Props.Layout
import Verif.Proof.Drained

/-!
# Only the tokens matter (C47)

Two texts with the same tokens and the same line breaks between them give the same results, whatever
the white space, the columns and the line numbers.
-/

namespace Ressa

/-- No item starts at a line feed. -/
def NoLeadingBreak (text : Txt) (all : List Tok) : Prop :=
  ∀ t ∈ all, ∀ p u, text = p ++ u → blen p = t.item.span.start → u.head? ≠ some '\n'

/-- The items at the same place in the two scans. -/
def SamePlace (all all' : List Tok) (t t' : Tok) : Prop := ∃ k : Nat, all[k]? = some t ∧ all'[k]? = some t'

/-- The two texts have the same items with the same line breaks between them: the items agree in
kind, in text and in whether a line break precedes them, and two items are on the same line of one
text if they are on the same line of the other. -/
structure SameTokens (text : Txt) (all : List Tok) (text' : Txt) (all' : List Tok) : Prop where
  length : all'.length = all.length
  nl {t t'} : SamePlace all all' t t' → t'.nl = t.nl
  kind {t t'} : SamePlace all all' t t' → t'.item.token = t.item.token
  slice {t t'} : SamePlace all all' t t' →
    sliceB text' t'.item.span.start t'.item.span.stop = sliceB text t.item.span.start t.item.span.stop
  line {t t' u u' p p' q q'} : SamePlace all all' t t' → SamePlace all all' u u' →
    PosAt text t.item.span.start p → PosAt text' t'.item.span.start p' →
    PosAt text u.item.span.start q → PosAt text' u'.item.span.start q' →
    (p.line = q.line ↔ p'.line = q'.line)

/-- `p` and `p'` are the positions of the items at the same place. -/
def PosAlike (text : Txt) (all : List Tok) (text' : Txt) (all' : List Tok) (p p' : Position) : Prop :=
  ∃ t t', SamePlace all all' t t' ∧ PosAt text t.item.span.start p ∧
    PosAt text' t'.item.span.start p'

/-- The same, or both are the start of the text. -/
def PlaceAlike (text : Txt) (all : List Tok) (text' : Txt) (all' : List Tok) (p p' : Position) :
    Prop :=
  p = ⟨1, 0⟩ ∧ p' = ⟨1, 0⟩ ∨ PosAlike text all text' all' p p'

/-- The same error at the same item. -/
inductive ErrorAlike (place : Position → Position → Prop) : Error → Error → Prop
  | unexpectedToken {p p'} (m) : place p p' →
    ErrorAlike place (.unexpectedToken p m) (.unexpectedToken p' m)
  | unexpectedEoF : ErrorAlike place .unexpectedEoF .unexpectedEoF
  | parseAfterEoF : ErrorAlike place .parseAfterEoF .parseAfterEoF
  | unableToReinterpret {p p'} (a b) : place p p' →
    ErrorAlike place (.unableToReinterpret p a b) (.unableToReinterpret p' a b)
  | redecl {p p'} (t) : place p p' → ErrorAlike place (.redecl p t) (.redecl p' t)
  | operationError {p p'} (t) : place p p' →
    ErrorAlike place (.operationError p t) (.operationError p' t)
  | invalidGetterParams {p p'} : place p p' →
    ErrorAlike place (.invalidGetterParams p) (.invalidGetterParams p')
  | invalidSetterParams {p p'} : place p p' →
    ErrorAlike place (.invalidSetterParams p) (.invalidSetterParams p')
  | nonStrict {p p'} (t) : place p p' →
    ErrorAlike place (.nonStrictFeatureInStrictContext p t) (.nonStrictFeatureInStrictContext p' t)

/-- The same reply, with errors at the same item. -/
inductive ReplyAlike (place : Position → Position → Prop) : Reply → Reply → Prop
  | nextOk (o) : ReplyAlike place (.nextOk o) (.nextOk o)
  | parseOk (p) : ReplyAlike place (.parseOk p) (.parseOk p)
  | exprOk (x) : ReplyAlike place (.exprOk x) (.exprOk x)
  | nextErr {e e'} : ErrorAlike place e e' → ReplyAlike place (.nextErr e) (.nextErr e')
  | parseErr {e e'} : ErrorAlike place e e' → ReplyAlike place (.parseErr e) (.parseErr e')
  | exprErr {e e'} : ErrorAlike place e e' → ReplyAlike place (.exprErr e) (.exprErr e')

/-- The same replies, with errors at the same items. -/
inductive RepliesAlike (place : Position → Position → Prop) : List Reply → List Reply → Prop
  | nil : RepliesAlike place [] []
  | cons {r r' rs rs'} : ReplyAlike place r r' → RepliesAlike place rs rs' →
    RepliesAlike place (r :: rs) (r' :: rs')

theorem SamePlace.symm {all all' t t'} (h : SamePlace all all' t t') : SamePlace all' all t' t := by
  obtain ⟨k, h1, h2⟩ := h
  exact ⟨k, h2, h1⟩

theorem SameTokens.symm {text all text' all'} (h : SameTokens text all text' all') :
    SameTokens text' all' text all where
  length := h.length.symm
  nl hp := (h.nl hp.symm).symm
  kind hp := (h.kind hp.symm).symm
  slice hp := (h.slice hp.symm).symm
  line h1 h2 h3 h4 h5 h6 := (h.line h1.symm h2.symm h4 h3 h6 h5).symm

/-- The table gives the exact position of an item. -/
theorem NoLeadingBreak.position {text : Txt} {all : List Tok} (hn : NoLeadingBreak text all)
    (hlf : Breaks text all) (hok : ScannerOk text all) {t} (ht : t ∈ all) :
    ∃ p, getItemPosition (getLines text) t.item.span.start = some p ∧
      PosAt text t.item.span.start p := by
  obtain ⟨raw, hr, _⟩ := hok.items t ht
  obtain ⟨a, b, e, h1, _⟩ := sliceB_iff.1 hr
  have e' : text = a ++ (raw ++ b) := by rw [e]; simp
  refine ⟨⟨lineOf a, columnOf a⟩, ?_, a, raw ++ b, e', h1, rfl⟩
  rw [← h1, e']
  exact position_correct a (raw ++ b) (e' ▸ hlf).crOk (hn t ht a _ e' h1)
    (hlf.starts t ht a _ e' h1)

section
variable {text text' : Txt} {all all' : List Tok}

/-- How the two parsers began: where they were, the comments they had delivered, and whether
`allow_strict_directive` may differ. -/
structure Anchor where
  loose : Prop
  place : Position
  place' : Position
  pre : List (CommentKind × Txt)
  pre' : List (CommentKind × Txt)

/-- Both parsers are new. -/
def Anchor.start : Anchor := ⟨False, ⟨1, 0⟩, ⟨1, 0⟩, [], []⟩

variable {A : Anchor}

/-- The positions of the items at the same place, or where the parsers began. -/
def PlaceFrom (A : Anchor) (text : Txt) (all : List Tok) (text' : Txt) (all' : List Tok)
    (p p' : Position) : Prop :=
  p = A.place ∧ p' = A.place' ∨ PosAlike text all text' all' p p'

/-- The two parsers have delivered the same comments since they began. -/
def CommentsAlike (A : Anchor) (l l' : List (CommentKind × Txt × Span)) : Prop :=
  ∃ x, l.map (fun c => (c.1, c.2.1)) = A.pre ++ x ∧ l'.map (fun c => (c.1, c.2.1)) = A.pre' ++ x

theorem CommentsAlike.snoc {l l'} (h : CommentsAlike A l l') (k : CommentKind) (t : Txt)
    (sp sp' : Span) : CommentsAlike A (l ++ [(k, t, sp)]) (l' ++ [(k, t, sp')]) := by
  obtain ⟨x, h1, h2⟩ := h
  exact ⟨x ++ [(k, t)], by simp [h1], by simp [h2]⟩

/-- The two states have read the same number of items. -/
structure Alike (A : Anchor) (text : Txt) (all : List Tok) (text' : Txt) (all' : List Tok)
    (s s' : St) : Prop where
  ext : s'.ext = s.ext
  tolerant : s'.tolerant = s.tolerant
  isModule : s'.isModule = s.isModule
  pendEnd : s'.pendEnd = s.pendEnd
  foundEof : s'.foundEof = s.foundEof
  rest : ∃ k, s.rest = all.drop k ∧ s'.rest = all'.drop k
  ctx : CtxAlike A.loose s.ctx s'.ctx
  cur : PlaceFrom A text all text' all' s.curPos s'.curPos
  comments : CommentsAlike A s.comments s'.comments

/-- Items at the same place. -/
def ItemAlike (all all' : List Tok) (i i' : Item) : Prop :=
  ∃ t t', SamePlace all all' t t' ∧ i = t.item ∧ i' = t'.item

/-- The loop of `nextItem` on the two texts. -/
theorem nextGo_alike (H : SameTokens text all text' all') (hlf : Breaks text all)
    (hlf' : Breaks text' all') (hok : ScannerOk text all) (hok' : ScannerOk text' all') :
    ∀ (ts ts' : List Tok) (k : Nat), all.drop k = ts → all'.drop k = ts' →
    ∀ (span span' : Span) (s s' : St), s.stream = text → s'.stream = text' →
    s'.ext = s.ext → s'.tolerant = s.tolerant → s'.isModule = s.isModule → s'.pendEnd = s.pendEnd →
    s'.foundEof = s.foundEof → s'.look.token = s.look.token →
    CtxAlike A.loose s.ctx s'.ctx →
    PlaceFrom A text all text' all' s.curPos s'.curPos →
    CommentsAlike A s.comments s'.comments →
    SpanOk text span → SpanOk text' span' → PosAt text span.start s.lookPos → PosAt text' span'.start s'.lookPos →
    PlaceFrom A text all text' all' s.lookPos s'.lookPos →
    nextItemGo span' ts' s' ≠ .panic →
    match nextItemGo span ts s with
    | .ok a t => ∃ t', nextItemGo span' ts' s' = .ok s'.look t' ∧ a = s.look ∧
      Alike A text all text' all' t t' ∧
      (t.look = s.look ∧ t'.look = s'.look ∨ ItemAlike all all' t.look t'.look)
    | .err e t => ∃ e' t', nextItemGo span' ts' s' = .err e' t' ∧
      ErrorAlike (PlaceFrom A text all text' all') e e' ∧ Alike A text all text' all' t t' ∧
      (t.look = s.look ∧ t'.look = s'.look ∨ ItemAlike all all' t.look t'.look)
    | .panic => True
    | .diverge => True
  | [], ts', k, hk, hk', span, span', s, s', h0, h0', h1, h2, h3, h4, h5, h6, ⟨o, a, h7, h7'⟩, h8, h9, hx, hx', h10,
      h11, h12, hp => by
    have hn : ts' = [] := by
      rw [← hk', List.drop_eq_nil_iff, H.length, ← List.drop_eq_nil_iff]; exact hk
    subst hn
    simp only [nextItemGo, h6, h5, h4]
    by_cases he : s.look.token.isEof = true
    · by_cases hf : s.foundEof = true
      · rw [if_pos he, if_pos hf, if_pos he, if_pos hf]
        exact ⟨_, _, rfl, .parseAfterEoF, ⟨h1, h2, h3, rfl, by simp, ⟨k, hk.symm, hk'.symm⟩, ⟨o, a, by simp [h7], h7'⟩, h8,
          h9⟩, .inl ⟨rfl, rfl⟩⟩
      · rw [if_pos he, if_neg hf, if_pos he, if_neg hf]
        exact ⟨_, rfl, rfl, ⟨h1, h2, h3, rfl, rfl, ⟨k, hk.symm, hk'.symm⟩, ⟨o, a, by simp [h7], h7'⟩, h8,
          h9⟩, .inl ⟨rfl, rfl⟩⟩
    · rw [if_neg he, if_neg he]
      exact ⟨_, _, rfl, .unexpectedEoF, ⟨h1, h2, h3, rfl, by simp, ⟨k, hk.symm, hk'.symm⟩, ⟨o, a, by simp [h7], h7'⟩, h8,
          h9⟩, .inl ⟨rfl, rfl⟩⟩
  | t :: ts, ts', k, hk, hk', span, span', s, s', h0, h0', h1, h2, h3, h4, h5, h6, ⟨o, a, h7, h7'⟩, h8, h9,
      hx, hx', h10, h11, h12, hp => by
    obtain ⟨t', ts'', rfl⟩ : ∃ t' ts'', ts' = t' :: ts'' := by
      cases ts' with
      | cons t' ts'' => exact ⟨t', ts'', rfl⟩
      | nil =>
        exfalso
        rw [List.drop_eq_nil_iff, H.length, ← List.drop_eq_nil_iff, hk] at hk'
        cases hk'
    have place : SamePlace all all' t t' := by
      refine ⟨k, ?_, ?_⟩
      · have := congrArg List.head? hk; simpa [List.head?_drop] using this
      · have := congrArg List.head? hk'; simpa [List.head?_drop] using this
    have hd : all.drop (k + 1) = ts := by
      rw [← List.tail_drop, hk]; rfl
    have hd' : all'.drop (k + 1) = ts'' := by
      rw [← List.tail_drop, hk']; rfl
    have hm : t ∈ all := List.mem_of_getElem? place.choose_spec.1
    have hm' : t' ∈ all' := List.mem_of_getElem? place.choose_spec.2
    have hkind := H.kind place
    have hnl := H.nl place
    have hsl := H.slice place
    by_cases hc : t.item.token.isComment = true
    · obtain ⟨kind, hkk⟩ : ∃ k, t.item.token = .comment k := by
        cases h : t.item.token <;> rw [h] at hc <;> cases hc
        exact ⟨_, rfl⟩
      have hkk' : t'.item.token = .comment kind := hkind.trans hkk
      rw [Cut.nextItemGo_comment hkk'] at hp ⊢
      rw [Cut.nextItemGo_comment hkk]
      rw [h0'] at hp ⊢
      rw [h0]
      cases hu : updatePositions text s.lookPos span t.item.span.start with
      | none => trivial
      | some c =>
        cases hu' : updatePositions text' s'.lookPos span' t'.item.span.start with
        | none => rw [hu'] at hp; exact absurd rfl hp
        | some c' =>
          rw [hu'] at hp
          obtain ⟨cur, look⟩ := c
          obtain ⟨cur', look'⟩ := c'
          obtain ⟨rfl, hlook⟩ := updatePositions_exact hlf hx (hlf.whole t hm) h10 hu
          obtain ⟨rfl, hlook'⟩ := updatePositions_exact hlf' hx' (hlf'.whole t' hm') h11 hu'
          simp only at hp ⊢
          rw [hsl] at hp ⊢
          cases hs : sliceB text t.item.span.start t.item.span.stop with
          | none =>
            exact ⟨_, _, rfl, .operationError _ h12, ⟨h1, h2, h3, h4, h5,
              ⟨k + 1, hd.symm, hd'.symm⟩, ⟨o, a, by simp [h7, hnl], h7'⟩, h12, h9⟩, .inl ⟨rfl, rfl⟩⟩
          | some c =>
            rw [hs] at hp
            exact nextGo_alike H hlf hlf' hok hok' ts ts'' (k + 1) hd hd' _ _ _ _ rfl rfl h1 h2 h3 h4 h5 h6
              ⟨o, a, by simp [h7, hnl], h7'⟩ h12 (h9.snoc _ _ _ _) (hlf.span hok hm)
              (hlf'.span hok' hm') hlook hlook'
              (.inr ⟨t, t', place, hlook, hlook'⟩) hp
    · have hc' : t.item.token.isComment = false := by simpa using hc
      have hc'' : t'.item.token.isComment = false := by rw [hkind, hc']
      rw [Cut.nextItemGo_token hc''] at hp ⊢
      rw [Cut.nextItemGo_token hc']
      rw [h0'] at hp ⊢
      rw [h0]
      cases hu : updatePositions text s.lookPos span t.item.span.start with
      | none => trivial
      | some c =>
        cases hu' : updatePositions text' s'.lookPos span' t'.item.span.start with
        | none => rw [hu'] at hp; exact absurd rfl hp
        | some c' =>
          obtain ⟨cur, look⟩ := c
          obtain ⟨cur', look'⟩ := c'
          obtain ⟨rfl, hlook⟩ := updatePositions_exact hlf hx (hlf.whole t hm) h10 hu
          obtain ⟨rfl, hlook'⟩ := updatePositions_exact hlf' hx' (hlf'.whole t' hm') h11 hu'
          exact ⟨_, rfl, rfl, ⟨h1, h2, h3, h4, h5,
              ⟨k + 1, hd.symm, hd'.symm⟩, ⟨o, a, by simp [h7, hnl], h7'⟩, h12, h9⟩, .inr ⟨t, t', place, rfl, rfl⟩⟩

/-- The simulation between parsers of the two texts. -/
def twin (A : Anchor) (text : Txt) (all : List Tok) (text' : Txt) (all' : List Tok) : Twin where
  item := ItemAlike all all'
  pos := PosAlike text all text' all'
  R s s' := Alike A text all text' all' s s' ∧ ItemAlike all all' s.look s'.look ∧
    (posSys text all).inv s ∧ (posSys text' all').inv s' ∧ (s'.foundEof = true → s'.rest = [])
  err := ErrorAlike (PlaceFrom A text all text' all')
  loose := A.loose

theorem PosAlike.line {p p' q q'} (H : SameTokens text all text' all')
    (h : PosAlike text all text' all' p p') (k : PosAlike text all text' all' q q') :
    (p'.line == q'.line) = (p.line == q.line) := by
  obtain ⟨t, t', h1, h2, h3⟩ := h
  obtain ⟨u, u', k1, k2, k3⟩ := k
  have := H.line h1 k1 h2 h3 k2 k3
  simp only [Bool.beq_eq_decide_eq, this]

theorem peek_alike (H : SameTokens text all text' all') : ∀ (ts ts' : List Tok) (k : Nat),
    all.drop k = ts → all'.drop k = ts' →
    (peekSkipComments ts').map (·.token) = (peekSkipComments ts).map (·.token)
  | [], ts', k, hk, hk' => by
    have hn : ts' = [] := by
      rw [← hk', List.drop_eq_nil_iff, H.length, ← List.drop_eq_nil_iff]; exact hk
    subst hn
    rfl
  | t :: ts, ts', k, hk, hk' => by
    obtain ⟨t', ts'', rfl⟩ : ∃ t' ts'', ts' = t' :: ts'' := by
      cases ts' with
      | cons t' ts'' => exact ⟨t', ts'', rfl⟩
      | nil =>
        exfalso
        rw [List.drop_eq_nil_iff, H.length, ← List.drop_eq_nil_iff, hk] at hk'
        cases hk'
    have place : SamePlace all all' t t' := by
      refine ⟨k, ?_, ?_⟩
      · have := congrArg List.head? hk; simpa [List.head?_drop] using this
      · have := congrArg List.head? hk'; simpa [List.head?_drop] using this
    have hkind := H.kind place
    have ih := peek_alike H ts ts'' (k + 1) (by rw [← List.tail_drop, hk]; rfl)
      (by rw [← List.tail_drop, hk']; rfl)
    unfold peekSkipComments
    rw [hkind]
    split
    · exact ih
    · simp [hkind]

theorem twin_ok (H : SameTokens text all text' all') (hlf : Breaks text all)
    (hlf' : Breaks text' all')
    (hok : ScannerOk text all) (hok' : ScannerOk text' all') (hn : NoLeadingBreak text all)
    (hn' : NoLeadingBreak text' all')
    (hq : A.loose → ∀ {s w t}, (posSys text' all').inv s → (s.foundEof = true → s.rest = []) →
      full.expression s = .ok (.literal (.string w)) t → w ≠ t!"use strict") :
    (twin A text all text' all').Ok where
  tok := by rintro _ _ ⟨t, t', h, rfl, rfl⟩; exact H.kind h
  line h k := PosAlike.line H h k
  look h := h.2.1
  ctx h := h.1.ctx
  ctxMod h hc := ⟨⟨h.1.ext, h.1.tolerant, h.1.isModule, h.1.pendEnd, h.1.foundEof, h.1.rest,
    hc, h.1.cur, h.1.comments⟩, h.2.1, (posSys_ok hlf hok).ctxInv _ h.2.2.1,
    (posSys_ok hlf' hok').ctxInv _ h.2.2.2.1, h.2.2.2.2⟩
  quoted hl h := hq hl h.2.2.2.1 h.2.2.2.2
  ext h := h.1.ext
  tolerant h := h.1.tolerant
  isModule h := h.1.isModule
  lookPos h := by
    obtain ⟨t, t', hp, e, e'⟩ := h.2.1
    exact ⟨t, t', hp, e ▸ h.2.2.1.2.look, e' ▸ h.2.2.2.1.2.look⟩
  cur h hk := by
    have hc := h.1.cur
    cases hk with
    | op => exact .operationError _ hc
    | redecl => exact .redecl _ hc
    | reinterpret => exact .unableToReinterpret _ _ hc
    | raw => exact .unexpectedToken _ hc
    | nonStrict => exact .nonStrict _ hc
  fail h := by
    cases h with
    | getter h => exact .invalidGetterParams (.inr h)
    | setter h => exact .invalidSetterParams (.inr h)
    | nonStrict _ h => exact .nonStrict _ (.inr h)
    | redecl _ h => exact .redecl _ (.inr h)
  slice h := by
    rintro ⟨t, t', hp, rfl, rfl⟩
    rw [h.2.2.1.1.stream, h.2.2.2.1.1.stream]
    exact H.slice hp
  blame h := by
    rintro ⟨t, t', hp, rfl, rfl⟩ hg
    obtain ⟨k, k1, k2⟩ := hp
    obtain ⟨p, e1, e2⟩ := hn.position hlf hok (List.mem_of_getElem? k1)
    obtain ⟨p', e1', e2'⟩ := hn'.position hlf' hok' (List.mem_of_getElem? k2)
    rw [h.2.2.1.1.lines, e1] at hg
    cases hg
    exact ⟨p', by rw [h.2.2.2.1.1.lines, e1'], fun m => .unexpectedToken _
      (.inr ⟨t, t', ⟨k, k1, k2⟩, e2, e2'⟩)⟩
  peek h := by
    obtain ⟨k, h1, h2⟩ := h.1.rest
    exact peek_alike H _ _ k h1.symm h2.symm
  async {s s'} h := by
    have same : ∀ b : Bool, (twin A text all text' all').post false Eq s' (.ok b s) (.ok b s') :=
      fun b => ⟨b, s', rfl, rfl, h, Nat.le_refl _⟩
    obtain ⟨t, t', hp, e, e'⟩ := h.2.1
    have hs : sliceB s'.stream s'.look.span.start s'.look.span.stop =
        sliceB s.stream s.look.span.start s.look.span.stop := by
      rw [h.2.2.1.1.stream, h.2.2.2.1.1.stream, e, e']; exact H.slice hp
    rw [atAsyncFunction_eq, atAsyncFunction_eq, hs]
    cases sliceB s.stream s.look.span.start s.look.span.stop with
    | none => trivial
    | some c =>
      simp only
      split
      · obtain ⟨k, r1, r2⟩ := h.1.rest
        rw [r1, r2, List.head?_drop, List.head?_drop]
        cases hk : all[k]? with
        | none =>
          have : all'[k]? = none := by
            rw [List.getElem?_eq_none_iff] at hk ⊢; rw [H.length]; exact hk
          rw [this]
          exact same _
        | some u =>
          cases hk' : all'[k]? with
          | none =>
            rw [List.getElem?_eq_none_iff, H.length, ← List.getElem?_eq_none_iff, hk] at hk'
            cases hk'
          | some u' =>
            obtain ⟨p, e1, e2⟩ := hn.position hlf hok (List.mem_of_getElem? hk)
            obtain ⟨p', e1', e2'⟩ := hn'.position hlf' hok' (List.mem_of_getElem? hk')
            simp only
            rw [h.2.2.1.1.lines, h.2.2.2.1.1.lines, e1, e1']
            simp only
            have := PosAlike.line H ⟨t, t', hp, e ▸ h.2.2.1.2.look, e' ▸ h.2.2.2.1.2.look⟩
              ⟨u, u', ⟨k, hk, hk'⟩, e2, e2'⟩
            rw [this, H.kind ⟨k, hk, hk'⟩]
            exact same _
      · exact same _
  next {s s'} h := by
    have hmu := nextItem_mu s'
    have i1 := (posSys_ok hlf hok).next h.2.2.1
    have i2 := (posSys_ok hlf' hok').next h.2.2.2.1
    have i3 := (nextItem_spec s').drained h.2.2.2.2
    have hnp : nextItem s' ≠ .panic := by
      intro e
      rw [e] at i2
      exact i2
    obtain ⟨t, t', hp, e, e'⟩ := h.2.1
    obtain ⟨k, r1, r2⟩ := h.1.rest
    have key := nextGo_alike H hlf hlf' hok hok' s.rest s'.rest k r1.symm r2.symm s.look.span s'.look.span s s'
      h.2.2.1.1.stream h.2.2.2.1.1.stream h.1.ext h.1.tolerant h.1.isModule h.1.pendEnd h.1.foundEof
      (by rw [e, e']; exact H.kind hp) h.1.ctx h.1.cur h.1.comments
      (e ▸ hlf.span hok (List.mem_of_getElem? hp.choose_spec.1))
      (e' ▸ hlf'.span hok' (List.mem_of_getElem? hp.choose_spec.2)) h.2.2.1.2.look h.2.2.2.1.2.look
      (.inr ⟨t, t', hp, e ▸ h.2.2.1.2.look, e' ▸ h.2.2.2.1.2.look⟩) hnp
    rw [show nextItemGo s.look.span s.rest s = nextItem s from rfl,
      show nextItemGo s'.look.span s'.rest s' = nextItem s' from rfl] at key
    have keep : ∀ {u u' : St}, (u.look = s.look ∧ u'.look = s'.look ∨
        ItemAlike all all' u.look u'.look) → ItemAlike all all' u.look u'.look := by
      rintro u u' (⟨h1, h2⟩ | h1)
      · rw [h1, h2]; exact h.2.1
      · exact h1
    cases hn : nextItem s with
    | ok a u =>
      rw [hn] at key i1
      obtain ⟨u', e1, rfl, hag, hl⟩ := key
      rw [e1] at i2 i3 hmu
      exact ⟨_, u', e1, h.2.1, ⟨hag, keep hl, i1.1, i2.1, i3⟩, by
        simp only [Res.Sat] at hmu; simp; omega⟩
    | err er u =>
      rw [hn] at key i1
      obtain ⟨er', u', e1, he, hag, hl⟩ := key
      rw [e1] at i2 i3 hmu
      exact ⟨er', u', e1, he, ⟨hag, keep hl, i1.1, i2.1, i3⟩, hmu⟩
    | panic => trivial
    | diverge => trivial

end

theorem repliesAlike {A text all text' all' rs rs'}
    (h : Twin.Sames (twin A text all text' all') rs rs') :
    RepliesAlike (PlaceFrom A text all text' all') rs rs' := by
  induction h with
  | nil => exact .nil
  | cons h _ ih =>
    refine .cons ?_ ih
    cases h with
    | nextErr h => exact .nextErr h
    | parseErr h => exact .parseErr h
    | exprErr h => exact .exprErr h
    | nextOk => exact .nextOk _
    | parseOk => exact .parseOk _
    | exprOk => exact .exprOk _

theorem build_alike {L : Lexer} {tolerant isModule : Bool} {text text' : Txt}
    (hlf : Breaks text (L.scan text)) (hlf' : Breaks text' (L.scan text'))
    (hok : ScannerOk text (L.scan text))
    (hok' : ScannerOk text' (L.scan text')) (H : SameTokens text (L.scan text) text' (L.scan text'))
    (hp : L.pendEnd text' = L.pendEnd text) :
    ∃ s t, Builder.build ⟨tolerant, isModule, text⟩ L = .ok () s ∧
      Builder.build ⟨tolerant, isModule, text'⟩ L = .ok () t ∧
      (twin .start text (L.scan text) text' (L.scan text')).R s t := by
  obtain ⟨s, hb, _⟩ := build_reading (b := ⟨tolerant, isModule, text⟩) hok
  obtain ⟨t, hb', _⟩ := build_reading (b := ⟨tolerant, isModule, text'⟩) hok'
  have q1 := reachable_tracked (b := ⟨tolerant, isModule, text⟩) hlf hok ⟨s, hb, .refl⟩
  have q2 := reachable_tracked (b := ⟨tolerant, isModule, text'⟩) hlf' hok' ⟨t, hb', .refl⟩
  refine ⟨s, t, hb, hb', ?_⟩
  obtain ⟨i, s1, h1, h2⟩ := bind_eq_ok.1
    (show skipItem (Builder.init ⟨tolerant, isModule, text⟩ L) = .ok () s from hb)
  obtain ⟨i', t1, k1, k2⟩ := bind_eq_ok.1
    (show skipItem (Builder.init ⟨tolerant, isModule, text'⟩ L) = .ok () t from hb')
  have e1 : s1 = s := by cases h2; rfl
  have e2 : t1 = t := by cases k2; rfl
  subst e1 e2
  have key := nextGo_alike (A := .start) H hlf hlf' hok hok' (L.scan text) (L.scan text') 0 rfl rfl noItem.span noItem.span
    (Builder.init ⟨tolerant, isModule, text⟩ L) (Builder.init ⟨tolerant, isModule, text'⟩ L)
    rfl rfl rfl rfl rfl hp rfl rfl ⟨_, _, rfl, .inl rfl⟩ (.inl ⟨rfl, rfl⟩) ⟨[], rfl, rfl⟩ (.noItem _) (.noItem _) ⟨[], text, rfl, rfl, rfl⟩
    ⟨[], text', rfl, rfl, rfl⟩ (.inl ⟨rfl, rfl⟩) (fun h => by
      rw [show nextItemGo noItem.span (L.scan text') (Builder.init ⟨tolerant, isModule, text'⟩ L) =
        nextItem (Builder.init ⟨tolerant, isModule, text'⟩ L) from rfl, k1] at h
      cases h)
  rw [show nextItemGo noItem.span (L.scan text) (Builder.init ⟨tolerant, isModule, text⟩ L) =
      nextItem (Builder.init ⟨tolerant, isModule, text⟩ L) from rfl,
    show nextItemGo noItem.span (L.scan text') (Builder.init ⟨tolerant, isModule, text'⟩ L) =
      nextItem (Builder.init ⟨tolerant, isModule, text'⟩ L) from rfl, h1, k1] at key
  obtain ⟨t', e, _, hag, hl⟩ := key
  cases e
  refine ⟨hag, ?_, q1, q2, reachable_drained (b := ⟨tolerant, isModule, text'⟩) ⟨_, hb', .refl⟩⟩
  obtain ⟨pre, u, r1, r2⟩ := q1.1.look
  obtain ⟨pre', u', r1', r2'⟩ := q2.1.look
  obtain ⟨k, z1, z2⟩ := hag.rest
  have hk : pre.length = pre'.length := by
    have a1 := congrArg List.length r1
    have a2 := congrArg List.length r1'
    have a3 := H.length
    have a4 : t1.rest.length = s1.rest.length := by rw [z1, z2]; simp [a3]
    simp at a1 a2
    omega
  exact ⟨u, u', ⟨pre.length, by rw [r1]; simp, by rw [r1', hk]; simp⟩, r2, r2'⟩

/-- C47: let two texts without line terminators other than LF have the same items with the same line
breaks between them.  Whatever calls on a parser of the first text return, the same calls on a parser
of the second return too, with errors at the same items, and the handler gets the same comments. -/
theorem layout_irrelevant {L : Lexer} {tolerant isModule : Bool} {text text' : Txt}
    (hlf : Breaks text (L.scan text)) (hlf' : Breaks text' (L.scan text'))
    (hok : ScannerOk text (L.scan text))
    (hok' : ScannerOk text' (L.scan text')) (hn : NoLeadingBreak text (L.scan text))
    (hn' : NoLeadingBreak text' (L.scan text'))
    (H : SameTokens text (L.scan text) text' (L.scan text'))
    (hp : L.pendEnd text' = L.pendEnd text) {s0 s : St} {rs : List Reply}
    (hb : Builder.build ⟨tolerant, isModule, text⟩ L = .ok () s0) (hs : Session s0 rs s) :
    ∃ t0 t rs', Builder.build ⟨tolerant, isModule, text'⟩ L = .ok () t0 ∧ Session t0 rs' t ∧
      RepliesAlike (PlaceAlike text (L.scan text) text' (L.scan text')) rs rs' ∧
      t.comments.map (fun c => (c.1, c.2.1)) = s.comments.map (fun c => (c.1, c.2.1)) := by
  obtain ⟨s1, t0, h1, h2, hr⟩ := build_alike (tolerant := tolerant) (isModule := isModule)
    hlf hlf' hok hok' H hp
  rw [hb] at h1
  cases h1
  obtain ⟨rs', t, k1, k2, k3⟩ := Twin.session
    (twin_ok (A := .start) H hlf hlf' hok hok' hn hn' (fun h => h.elim)) hs t0 hr
  obtain ⟨x, c1, c2⟩ := k3.1.comments
  exact ⟨t0, t, rs', h2, k1, repliesAlike k2, c2.trans c1.symm⟩

/-- C47 for `parse`: both texts are programs with the same tree, or neither is. -/
theorem layout_same_program {L : Lexer} {tolerant isModule : Bool} {text text' : Txt}
    (hlf : Breaks text (L.scan text)) (hlf' : Breaks text' (L.scan text'))
    (hok : ScannerOk text (L.scan text))
    (hok' : ScannerOk text' (L.scan text')) (hn : NoLeadingBreak text (L.scan text))
    (hn' : NoLeadingBreak text' (L.scan text'))
    (H : SameTokens text (L.scan text) text' (L.scan text'))
    (hp : L.pendEnd text' = L.pendEnd text) (p : Program) :
    (∃ s0 s, Builder.build ⟨tolerant, isModule, text⟩ L = .ok () s0 ∧ parse s0 = .ok p s) ↔
      ∃ t0 t, Builder.build ⟨tolerant, isModule, text'⟩ L = .ok () t0 ∧ parse t0 = .ok p t := by
  have key : ∀ {text text' : Txt}, Breaks text (L.scan text) → Breaks text' (L.scan text') → ScannerOk text (L.scan text) →
      ScannerOk text' (L.scan text') → NoLeadingBreak text (L.scan text) →
      NoLeadingBreak text' (L.scan text') → SameTokens text (L.scan text) text' (L.scan text') →
      L.pendEnd text' = L.pendEnd text →
      (∃ s0 s, Builder.build ⟨tolerant, isModule, text⟩ L = .ok () s0 ∧ parse s0 = .ok p s) →
      ∃ t0 t, Builder.build ⟨tolerant, isModule, text'⟩ L = .ok () t0 ∧ parse t0 = .ok p t := by
    rintro text text' a1 a2 a3 a4 a5 a6 a7 a8 ⟨s0, s, hb, hp⟩
    obtain ⟨t0, t, rs', k1, k2, k3, _⟩ := layout_irrelevant a1 a2 a3 a4 a5 a6 a7 a8 hb (.parseOk hp .nil)
    cases k3 with
    | cons h k3 =>
      cases h
      cases k3
      cases k2 with
      | parseOk h _ => exact ⟨t0, _, k1, h⟩
  exact ⟨key hlf hlf' hok hok' hn hn' H hp, key hlf' hlf hok' hok hn' hn H.symm hp.symm⟩

/-- `a;` and `b c` on two lines. -/
def spacingText : Txt := t!"a;\nb c"
/-- The same with other white space and line breaks. -/
def spacingText' : Txt := t!" a ;\r\n\r\n  b\tc"

/-- A scanner that yields the same items for both. -/
def spacingLexer : Lexer where
  ext := Demo.ext
  scan t := if t = spacingText then
      [⟨false, .ident, 0, 1⟩, ⟨false, .punct .semiColon, 1, 2⟩, ⟨true, .ident, 3, 4⟩,
        ⟨false, .ident, 5, 6⟩, ⟨false, .eof, 6, 6⟩]
    else
      [⟨false, .ident, 1, 2⟩, ⟨false, .punct .semiColon, 3, 4⟩, ⟨true, .ident, 10, 11⟩,
        ⟨false, .ident, 12, 13⟩, ⟨false, .eof, 13, 13⟩]
  pendEnd _ := false

/-- The position behind `n` bytes. -/
theorem posAt_of {text : Txt} {n : Nat} (p u : Txt) (e : text = p ++ u) (hn : blen p = n)
    {q : Position} (h : PosAt text n q) : q = ⟨lineOf p, columnOf p⟩ :=
  h.unique ⟨p, u, e, hn, rfl⟩

theorem spacing_place {t t' : Tok}
    (h : SamePlace (spacingLexer.scan spacingText) (spacingLexer.scan spacingText') t t') :
    (t, t') ∈ [((⟨false, .ident, 0, 1⟩ : Tok), (⟨false, .ident, 1, 2⟩ : Tok)),
      (⟨false, .punct .semiColon, 1, 2⟩, ⟨false, .punct .semiColon, 3, 4⟩),
      (⟨true, .ident, 3, 4⟩, ⟨true, .ident, 10, 11⟩), (⟨false, .ident, 5, 6⟩, ⟨false, .ident, 12, 13⟩),
      (⟨false, .eof, 6, 6⟩, ⟨false, .eof, 13, 13⟩)] := by
  obtain ⟨k, h1, h2⟩ := h
  rcases k with _ | _ | _ | _ | _ | k
  all_goals first
    | (cases h1; done)
    | (cases Option.some.inj h1; cases Option.some.inj h2; simp)

theorem spacing_pos {t t' : Tok} {p p' : Position}
    (h : SamePlace (spacingLexer.scan spacingText) (spacingLexer.scan spacingText') t t')
    (k : PosAt spacingText t.item.span.start p) (k' : PosAt spacingText' t'.item.span.start p') :
    p.line = 1 ∧ p'.line = 1 ∨ p.line = 2 ∧ p'.line = 3 := by
  have h := spacing_place h
  simp only [List.mem_cons, Prod.mk.injEq, List.not_mem_nil, or_false] at h
  rcases h with ⟨rfl, rfl⟩ | ⟨rfl, rfl⟩ | ⟨rfl, rfl⟩ | ⟨rfl, rfl⟩ | ⟨rfl, rfl⟩
  · rw [posAt_of [] _ rfl rfl k, posAt_of t!" " _ rfl rfl k']; decide
  · rw [posAt_of t!"a" _ rfl rfl k, posAt_of t!" a " _ rfl rfl k']; decide
  · rw [posAt_of t!"a;\n" _ rfl rfl k, posAt_of t!" a ;\r\n\r\n  " _ rfl rfl k']; decide
  · rw [posAt_of t!"a;\nb " _ rfl rfl k, posAt_of t!" a ;\r\n\r\n  b\t" _ rfl rfl k']; decide
  · rw [posAt_of t!"a;\nb c" [] rfl rfl k, posAt_of t!" a ;\r\n\r\n  b\tc" [] rfl rfl k']; decide

theorem spacing_same : SameTokens spacingText (spacingLexer.scan spacingText) spacingText'
    (spacingLexer.scan spacingText') where
  length := rfl
  nl h := by
    have h := spacing_place h
    simp only [List.mem_cons, Prod.mk.injEq, List.not_mem_nil, or_false] at h
    rcases h with ⟨rfl, rfl⟩ | ⟨rfl, rfl⟩ | ⟨rfl, rfl⟩ | ⟨rfl, rfl⟩ | ⟨rfl, rfl⟩ <;> rfl
  kind h := by
    have h := spacing_place h
    simp only [List.mem_cons, Prod.mk.injEq, List.not_mem_nil, or_false] at h
    rcases h with ⟨rfl, rfl⟩ | ⟨rfl, rfl⟩ | ⟨rfl, rfl⟩ | ⟨rfl, rfl⟩ | ⟨rfl, rfl⟩ <;> rfl
  slice h := by
    have h := spacing_place h
    simp only [List.mem_cons, Prod.mk.injEq, List.not_mem_nil, or_false] at h
    rcases h with ⟨rfl, rfl⟩ | ⟨rfl, rfl⟩ | ⟨rfl, rfl⟩ | ⟨rfl, rfl⟩ | ⟨rfl, rfl⟩ <;> decide
  line h k h1 h2 k1 k2 := by
    have := spacing_pos h h1 h2
    have := spacing_pos k k1 k2
    omega

theorem spacing_scannerOk : ScannerOk spacingText (spacingLexer.scan spacingText) := by
  refine ⟨?_, ?_, ?_⟩
  · intro t ht
    simp only [spacingLexer, if_true, List.mem_cons, List.not_mem_nil, or_false] at ht
    rcases ht with rfl | rfl | rfl | rfl | rfl <;> exact ⟨_, rfl, trivial⟩
  · rw [show spacingLexer.scan spacingText = [⟨false, .ident, 0, 1⟩,
      ⟨false, .punct .semiColon, 1, 2⟩, ⟨true, .ident, 3, 4⟩, ⟨false, .ident, 5, 6⟩,
      ⟨false, .eof, 6, 6⟩] from rfl]
    simp
  · exact ⟨[⟨false, .ident, 0, 1⟩, ⟨false, .punct .semiColon, 1, 2⟩, ⟨true, .ident, 3, 4⟩,
      ⟨false, .ident, 5, 6⟩], ⟨false, .eof, 6, 6⟩, rfl, rfl, by simp⟩

theorem spacing_scannerOk' : ScannerOk spacingText' (spacingLexer.scan spacingText') := by
  rw [show spacingLexer.scan spacingText' = [⟨false, .ident, 1, 2⟩,
    ⟨false, .punct .semiColon, 3, 4⟩, ⟨true, .ident, 10, 11⟩, ⟨false, .ident, 12, 13⟩,
    ⟨false, .eof, 13, 13⟩] from rfl]
  refine ⟨?_, ?_, ?_⟩
  · intro t ht
    simp only [List.mem_cons, List.not_mem_nil, or_false] at ht
    rcases ht with rfl | rfl | rfl | rfl | rfl <;> exact ⟨_, rfl, trivial⟩
  · simp
  · exact ⟨[⟨false, .ident, 1, 2⟩, ⟨false, .punct .semiColon, 3, 4⟩, ⟨true, .ident, 10, 11⟩,
      ⟨false, .ident, 12, 13⟩], ⟨false, .eof, 13, 13⟩, rfl, rfl, by simp⟩

/-- Where the text is known to go on with something else, no line feed starts. -/
theorem noBreak_of {text : Txt} {n : Nat} (p u : Txt) (e : text = p ++ u) (hn : blen p = n)
    (hu : u.head? ≠ some '\n') : ∀ q v, text = q ++ v → blen q = n → v.head? ≠ some '\n' := by
  intro q v e' hq
  obtain ⟨_, rfl⟩ := append_inj_blen (e.symm.trans e') (by omega)
  exact hu

theorem spacing_noBreak : NoLeadingBreak spacingText (spacingLexer.scan spacingText) := by
  intro t ht
  simp only [spacingLexer, if_true, List.mem_cons, List.not_mem_nil, or_false] at ht
  rcases ht with rfl | rfl | rfl | rfl | rfl
  · exact noBreak_of [] spacingText rfl rfl (by decide)
  · exact noBreak_of t!"a" t!";\nb c" rfl rfl (by decide)
  · exact noBreak_of t!"a;\n" t!"b c" rfl rfl (by decide)
  · exact noBreak_of t!"a;\nb " t!"c" rfl rfl (by decide)
  · exact noBreak_of t!"a;\nb c" [] rfl rfl (by decide)

theorem spacing_noBreak' : NoLeadingBreak spacingText' (spacingLexer.scan spacingText') := by
  rw [show spacingLexer.scan spacingText' = [⟨false, .ident, 1, 2⟩,
    ⟨false, .punct .semiColon, 3, 4⟩, ⟨true, .ident, 10, 11⟩, ⟨false, .ident, 12, 13⟩,
    ⟨false, .eof, 13, 13⟩] from rfl]
  intro t ht
  simp only [List.mem_cons, List.not_mem_nil, or_false] at ht
  rcases ht with rfl | rfl | rfl | rfl | rfl
  · exact noBreak_of t!" " t!"a ;\r\n\r\n  b\tc" rfl rfl (by decide)
  · exact noBreak_of t!" a " t!";\r\n\r\n  b\tc" rfl rfl (by decide)
  · exact noBreak_of t!" a ;\r\n\r\n  " t!"b\tc" rfl rfl (by decide)
  · exact noBreak_of t!" a ;\r\n\r\n  b\t" t!"c" rfl rfl (by decide)
  · exact noBreak_of spacingText' [] rfl rfl (by decide)

/-- Every CR is followed by LF. -/
def crlfOnly : Txt → Bool
  | [] => true
  | '\r' :: t => t.head? == some '\n' && crlfOnly t
  | _ :: t => crlfOnly t

theorem crlfOnly_spec {t : Txt} (h : crlfOnly t = true) :
    ∀ a b, t = a ++ '\r' :: b → b.head? = some '\n' := by
  fun_induction crlfOnly t with
  | case1 => intro a b e; simp at e
  | case2 t ih =>
    simp only [Bool.and_eq_true, beq_iff_eq] at h
    intro a b e
    cases a with
    | nil => cases e; exact h.1
    | cons c a => cases e; exact ih h.2 _ _ rfl
  | case3 c t hc ih =>
    intro a b e
    cases a with
    | nil => cases e; exact absurd rfl hc
    | cons c a => cases e; exact ih h _ _ rfl

theorem spacing_breaks' : Breaks spacingText' (spacingLexer.scan spacingText') := by
  have key : ∀ t ∈ spacingLexer.scan spacingText', ∃ p u, spacingText' = p ++ u ∧
      blen p = t.item.span.start ∧ u.head? ≠ some '\r' ∧ u.head? ≠ some '\n' ∧
      ∃ raw, sliceB spacingText' t.item.span.start t.item.span.stop = some raw ∧ '\r' ∉ raw := by
    rw [show spacingLexer.scan spacingText' = [⟨false, .ident, 1, 2⟩,
      ⟨false, .punct .semiColon, 3, 4⟩, ⟨true, .ident, 10, 11⟩, ⟨false, .ident, 12, 13⟩,
      ⟨false, .eof, 13, 13⟩] from rfl]
    intro t ht
    simp only [List.mem_cons, List.not_mem_nil, or_false] at ht
    rcases ht with rfl | rfl | rfl | rfl | rfl
    · exact ⟨t!" ", _, rfl, rfl, by decide, by decide, t!"a", rfl, by decide⟩
    · exact ⟨t!" a ", _, rfl, rfl, by decide, by decide, t!";", rfl, by decide⟩
    · exact ⟨t!" a ;\r\n\r\n  ", _, rfl, rfl, by decide, by decide, t!"b", rfl, by decide⟩
    · exact ⟨t!" a ;\r\n\r\n  b\t", _, rfl, rfl, by decide, by decide, t!"c", rfl, by decide⟩
    · exact ⟨spacingText', [], rfl, rfl, by decide, by decide, [], rfl, by decide⟩
  refine ⟨by decide, crlfOnly_spec (by decide), ?_, ?_, ?_⟩
  · intro t ht raw hr
    obtain ⟨_, _, _, _, _, _, raw', hr', h⟩ := key t ht
    rw [hr'] at hr
    cases hr
    exact h
  · intro t ht p u e hp
    obtain ⟨p', u', e', hp', h, _⟩ := key t ht
    obtain ⟨_, rfl⟩ := append_inj_blen (e'.symm.trans e) (by omega)
    exact h
  · intro t ht p u e hp hh
    obtain ⟨p', u', e', hp', _, h, _⟩ := key t ht
    obtain ⟨_, rfl⟩ := append_inj_blen (e'.symm.trans e) (by omega)
    exact h hh.2

/-- C47 on `a;⏎b c`, which is rejected at `c`: the hypotheses hold, and the text with other white
space, and CR LF for LF, is rejected at `c` too. -/
example :
    let all := spacingLexer.scan spacingText
    let all' := spacingLexer.scan spacingText'
    (Breaks spacingText all ∧ Breaks spacingText' all') ∧
    (ScannerOk spacingText all ∧ ScannerOk spacingText' all') ∧
    (NoLeadingBreak spacingText all ∧ NoLeadingBreak spacingText' all') ∧
    SameTokens spacingText all spacingText' all' ∧
    (match Builder.build ⟨false, false, spacingText⟩ spacingLexer with
      | .ok _ s => (parse s).outcome
      | _ => .panic) = .err (.unexpectedToken ⟨2, 2⟩ 
        (.expected [.text t!"`;`", .text t!"`eof`", .text t!"`}`"] .ident)) ∧
    (match Builder.build ⟨false, false, spacingText'⟩ spacingLexer with
      | .ok _ s => (parse s).outcome
      | _ => .panic) = .err (.unexpectedToken ⟨3, 4⟩ 
        (.expected [.text t!"`;`", .text t!"`eof`", .text t!"`}`"] .ident)) := by
  refine ⟨⟨?_, ?_⟩, ⟨spacing_scannerOk, spacing_scannerOk'⟩, ⟨spacing_noBreak, spacing_noBreak'⟩,
    spacing_same, ?_, ?_⟩
  · exact LfOnly.breaks (by show ∀ c ∈ _, _; decide) _
  · exact spacing_breaks'
  · kernel_rfl
  · kernel_rfl

end Ressa
