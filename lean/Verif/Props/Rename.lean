import Verif.Proof.RenSim
import Verif.Props.Spacing

/-!
# The words of a text are opaque (C61)

Two texts that differ only in the texts of identifiers, strings, numbers, regular expressions and
template pieces give the same trees up to those texts.
-/

namespace Ressa

/-- The second text is the first with every word `w` replaced by `ρ w`, where words are identifiers,
strings, numbers, regular expressions and template pieces: the items agree in kind and in whether a
line break precedes them, the text of a word is replaced, that of any other item is the same and left
alone by `ρ`, and two items are on the same line of one text if they are on the same line of the
other. -/
structure Renamed (ρ : Txt → Txt) (text : Txt) (all : List Tok) (text' : Txt) (all' : List Tok) :
    Prop where
  length : all'.length = all.length
  nl {t t'} : SamePlace all all' t t' → t'.nl = t.nl
  kind {t t'} : SamePlace all all' t t' → t'.item.token = t.item.token
  slice {t t' w} : SamePlace all all' t t' →
    sliceB text t.item.span.start t.item.span.stop = some w →
    sliceB text' t'.item.span.start t'.item.span.stop = some (ρ w) ∧
      (t.item.token.isWord = false → ρ w = w)
  line {t t' u u' p p' q q'} : SamePlace all all' t t' → SamePlace all all' u u' →
    PosAt text t.item.span.start p → PosAt text' t'.item.span.start p' →
    PosAt text u.item.span.start q → PosAt text' u'.item.span.start q' →
    (p.line = q.line ↔ p'.line = q'.line)

section
variable {ρ : Txt → Txt} {text text' : Txt} {all all' : List Tok}

/-- The two states have read the same number of items. -/
structure AlikeRen (ρ : Txt → Txt) (text : Txt) (all : List Tok) (text' : Txt) (all' : List Tok)
    (s s' : St) : Prop where
  ext : s'.ext = s.ext
  tolerant : s'.tolerant = s.tolerant
  isModule : s'.isModule = s.isModule
  pendEnd : s'.pendEnd = s.pendEnd
  foundEof : s'.foundEof = s.foundEof
  rest : ∃ k, s.rest = all.drop k ∧ s'.rest = all'.drop k
  ctx : CtxRen ρ s.ctx s'.ctx
  cur : PlaceAlike text all text' all' s.curPos s'.curPos
  comments : CommentsAlike .start s.comments s'.comments

/-- The loop of `nextItem` on the two texts. -/
theorem nextGo_ren (H : Renamed ρ text all text' all') (hlf : Breaks text all)
    (hlf' : Breaks text' all') (hok : ScannerOk text all) (hok' : ScannerOk text' all') :
    ∀ (ts ts' : List Tok) (k : Nat), all.drop k = ts → all'.drop k = ts' →
    ∀ (span span' : Span) (s s' : St), s.stream = text → s'.stream = text' →
    s'.ext = s.ext → s'.tolerant = s.tolerant → s'.isModule = s.isModule → s'.pendEnd = s.pendEnd →
    s'.foundEof = s.foundEof → s'.look.token = s.look.token →
    CtxRen ρ s.ctx s'.ctx →
    PlaceAlike text all text' all' s.curPos s'.curPos →
    CommentsAlike .start s.comments s'.comments →
    SpanOk text span → SpanOk text' span' → PosAt text span.start s.lookPos → PosAt text' span'.start s'.lookPos →
    PlaceAlike text all text' all' s.lookPos s'.lookPos →
    nextItemGo span' ts' s' ≠ .panic →
    match nextItemGo span ts s with
    | .ok a t => ∃ t', nextItemGo span' ts' s' = .ok s'.look t' ∧ a = s.look ∧
      AlikeRen ρ text all text' all' t t' ∧
      (t.look = s.look ∧ t'.look = s'.look ∨ ItemAlike all all' t.look t'.look)
    | .err e t => ∃ e' t', nextItemGo span' ts' s' = .err e' t' ∧
      ErrorKind (PlaceAlike text all text' all') e e' ∧ AlikeRen ρ text all text' all' t t' ∧
      (t.look = s.look ∧ t'.look = s'.look ∨ ItemAlike all all' t.look t'.look)
    | .panic => True
    | .diverge => True
  | [], ts', k, hk, hk', span, span', s, s', h0, h0', h1, h2, h3, h4, h5, h6, ⟨o, h7⟩, h8, h9, hx, hx', h10,
      h11, h12, hp => by
    have hn : ts' = [] := by
      rw [← hk', List.drop_eq_nil_iff, H.length, ← List.drop_eq_nil_iff]; exact hk
    subst hn
    simp only [nextItemGo, h6, h5, h4]
    by_cases he : s.look.token.isEof = true
    · by_cases hf : s.foundEof = true
      · rw [if_pos he, if_pos hf, if_pos he, if_pos hf]
        exact ⟨_, _, rfl, .parseAfterEoF, ⟨h1, h2, h3, rfl, by simp, ⟨k, hk.symm, hk'.symm⟩, ⟨o, by simp [h7]⟩, h8,
          h9⟩, .inl ⟨rfl, rfl⟩⟩
      · rw [if_pos he, if_neg hf, if_pos he, if_neg hf]
        exact ⟨_, rfl, rfl, ⟨h1, h2, h3, rfl, rfl, ⟨k, hk.symm, hk'.symm⟩, ⟨o, by simp [h7]⟩, h8,
          h9⟩, .inl ⟨rfl, rfl⟩⟩
    · rw [if_neg he, if_neg he]
      exact ⟨_, _, rfl, .unexpectedEoF, ⟨h1, h2, h3, rfl, by simp, ⟨k, hk.symm, hk'.symm⟩, ⟨o, by simp [h7]⟩, h8,
          h9⟩, .inl ⟨rfl, rfl⟩⟩
  | t :: ts, ts', k, hk, hk', span, span', s, s', h0, h0', h1, h2, h3, h4, h5, h6, ⟨o, h7⟩, h8, h9,
      hx, hx', h10, h11, h12, hp => by
    obtain ⟨t', ts'', rfl⟩ : ∃ t' ts'', ts' = t' :: ts'' := by
      cases ts' with
      | cons t' ts'' => exact ⟨t', ts'', rfl⟩
      | nil =>
        exfalso
        rw [List.drop_eq_nil_iff, H.length, ← List.drop_eq_nil_iff, hk] at hk'
        cases hk'
    have place : SamePlace all all' t t' := by
      refine ⟨k, ?_, ?_⟩
      · have := congrArg List.head? hk; simpa [List.head?_drop] using this
      · have := congrArg List.head? hk'; simpa [List.head?_drop] using this
    have hd : all.drop (k + 1) = ts := by
      rw [← List.tail_drop, hk]; rfl
    have hd' : all'.drop (k + 1) = ts'' := by
      rw [← List.tail_drop, hk']; rfl
    have hm : t ∈ all := List.mem_of_getElem? place.choose_spec.1
    have hm' : t' ∈ all' := List.mem_of_getElem? place.choose_spec.2
    have hkind := H.kind place
    have hnl := H.nl place
    obtain ⟨w, hw, _⟩ := hok.items t hm
    obtain ⟨hw', hwi⟩ := H.slice place hw
    by_cases hc : t.item.token.isComment = true
    · obtain ⟨kind, hkk⟩ : ∃ k, t.item.token = .comment k := by
        cases h : t.item.token <;> rw [h] at hc <;> cases hc
        exact ⟨_, rfl⟩
      have hkk' : t'.item.token = .comment kind := hkind.trans hkk
      rw [Cut.nextItemGo_comment hkk'] at hp ⊢
      rw [Cut.nextItemGo_comment hkk]
      rw [h0'] at hp ⊢
      rw [h0]
      cases hu : updatePositions text s.lookPos span t.item.span.start with
      | none => trivial
      | some c =>
        cases hu' : updatePositions text' s'.lookPos span' t'.item.span.start with
        | none => rw [hu'] at hp; exact absurd rfl hp
        | some c' =>
          rw [hu'] at hp
          obtain ⟨cur, look⟩ := c
          obtain ⟨cur', look'⟩ := c'
          obtain ⟨rfl, hlook⟩ := updatePositions_exact hlf hx (hlf.whole t hm) h10 hu
          obtain ⟨rfl, hlook'⟩ := updatePositions_exact hlf' hx' (hlf'.whole t' hm') h11 hu'
          simp only at hp ⊢
          rw [hw'] at hp ⊢
          rw [hw]
          rw [hwi (by rw [hkk]; rfl)] at hp ⊢
          exact nextGo_ren H hlf hlf' hok hok' ts ts'' (k + 1) hd hd' _ _ _ _ rfl rfl h1 h2 h3 h4 h5 h6
            ⟨o, by simp [h7, hnl]⟩ h12 (h9.snoc _ _ _ _) (hlf.span hok hm)
            (hlf'.span hok' hm') hlook hlook' (.inr ⟨t, t', place, hlook, hlook'⟩) hp
    · have hc' : t.item.token.isComment = false := by simpa using hc
      have hc'' : t'.item.token.isComment = false := by rw [hkind, hc']
      rw [Cut.nextItemGo_token hc''] at hp ⊢
      rw [Cut.nextItemGo_token hc']
      rw [h0'] at hp ⊢
      rw [h0]
      cases hu : updatePositions text s.lookPos span t.item.span.start with
      | none => trivial
      | some c =>
        cases hu' : updatePositions text' s'.lookPos span' t'.item.span.start with
        | none => rw [hu'] at hp; exact absurd rfl hp
        | some c' =>
          obtain ⟨cur, look⟩ := c
          obtain ⟨cur', look'⟩ := c'
          obtain ⟨rfl, hlook⟩ := updatePositions_exact hlf hx (hlf.whole t hm) h10 hu
          obtain ⟨rfl, hlook'⟩ := updatePositions_exact hlf' hx' (hlf'.whole t' hm') h11 hu'
          exact ⟨_, rfl, rfl, ⟨h1, h2, h3, h4, h5,
              ⟨k + 1, hd.symm, hd'.symm⟩, ⟨o, by simp [h7, hnl]⟩, h12, h9⟩, .inr ⟨t, t', place, rfl, rfl⟩⟩

/-- `nextItem` leaves the predicates of `ress` alone. -/
theorem nextItem_ext (s : St) :
    (nextItem s).Sat (fun _ t => t.ext = s.ext) (fun _ t => t.ext = s.ext) True := by
  have h := nextItem_spec s
  generalize s.look.span = a, s.rest = b, nextItem s = r at h
  induction h with
  | bad => trivial
  | comment _ _ _ _ ih => exact ih
  | _ => rfl

/-- The simulation between parsers of the two texts. -/
def renTwin (ρ : Txt → Txt) (text : Txt) (all : List Tok) (text' : Txt) (all' : List Tok) : Twin where
  item := ItemAlike all all'
  pos := PosAlike text all text' all'
  R s s' := (AlikeRen ρ text all text' all' s s' ∧
      ∀ t w, s.ext.isRestricted t (ρ w) = s.ext.isRestricted t w) ∧
    ItemAlike all all' s.look s'.look ∧
    (posSys text all).inv s ∧ (posSys text' all').inv s'
  err := ErrorKind (PlaceAlike text all text' all')
  loose := False

theorem Renamed.sameLine {p p' q q'} (H : Renamed ρ text all text' all')
    (h : PosAlike text all text' all' p p') (k : PosAlike text all text' all' q q') :
    (p'.line == q'.line) = (p.line == q.line) := by
  obtain ⟨t, t', h1, h2, h3⟩ := h
  obtain ⟨u, u', k1, k2, k3⟩ := k
  have := H.line h1 k1 h2 h3 k2 k3
  simp only [Bool.beq_eq_decide_eq, this]

theorem peek_ren (H : Renamed ρ text all text' all') : ∀ (ts ts' : List Tok) (k : Nat),
    all.drop k = ts → all'.drop k = ts' →
    (peekSkipComments ts').map (·.token) = (peekSkipComments ts).map (·.token)
  | [], ts', k, hk, hk' => by
    have hn : ts' = [] := by
      rw [← hk', List.drop_eq_nil_iff, H.length, ← List.drop_eq_nil_iff]; exact hk
    subst hn
    rfl
  | t :: ts, ts', k, hk, hk' => by
    obtain ⟨t', ts'', rfl⟩ : ∃ t' ts'', ts' = t' :: ts'' := by
      cases ts' with
      | cons t' ts'' => exact ⟨t', ts'', rfl⟩
      | nil =>
        exfalso
        rw [List.drop_eq_nil_iff, H.length, ← List.drop_eq_nil_iff, hk] at hk'
        cases hk'
    have place : SamePlace all all' t t' := by
      refine ⟨k, ?_, ?_⟩
      · have := congrArg List.head? hk; simpa [List.head?_drop] using this
      · have := congrArg List.head? hk'; simpa [List.head?_drop] using this
    have hkind := H.kind place
    have ih := peek_ren H ts ts'' (k + 1) (by rw [← List.tail_drop, hk]; rfl)
      (by rw [← List.tail_drop, hk']; rfl)
    unfold peekSkipComments
    rw [hkind]
    split
    · exact ih
    · simp [hkind]

theorem renTwin_ok [W : Words ρ] (H : Renamed ρ text all text' all') (hlf : Breaks text all)
    (hlf' : Breaks text' all')
    (hok : ScannerOk text all) (hok' : ScannerOk text' all') (hn : NoLeadingBreak text all)
    (hn' : NoLeadingBreak text' all') :
    (renTwin ρ text all text' all').ROk ρ where
  tok := by rintro _ _ ⟨t, t', h, rfl, rfl⟩; exact H.kind h
  line h k := H.sameLine h k
  look h := h.2.1
  ctx h := h.1.1.ctx
  ctxMod h hc := ⟨⟨⟨h.1.1.ext, h.1.1.tolerant, h.1.1.isModule, h.1.1.pendEnd, h.1.1.foundEof,
    h.1.1.rest, hc, h.1.1.cur, h.1.1.comments⟩, h.1.2⟩, h.2.1, (posSys_ok hlf hok).ctxInv _ h.2.2.1,
    (posSys_ok hlf' hok').ctxInv _ h.2.2.2⟩
  ext h := h.1.1.ext
  tolerant h := h.1.1.tolerant
  isModule h := h.1.1.isModule
  lookPos h := by
    obtain ⟨t, t', hp, e, e'⟩ := h.2.1
    exact ⟨t, t', hp, e ▸ h.2.2.1.2.look, e' ▸ h.2.2.2.2.look⟩
  err {s s' e e'} h he := by
    have key : ∀ {p p'}, (PosAlike text all text' all' p p' ∨ p = s.curPos ∧ p' = s'.curPos) →
        PlaceAlike text all text' all' p p' := by
      rintro p p' (hp | ⟨rfl, rfl⟩)
      · exact .inr hp
      · exact h.1.1.cur
    cases he with
    | unexpectedToken _ _ hp => exact .unexpectedToken _ _ (key hp)
    | unexpectedEoF => exact .unexpectedEoF
    | parseAfterEoF => exact .parseAfterEoF
    | unableToReinterpret _ _ _ _ hp => exact .unableToReinterpret _ _ _ _ (key hp)
    | redecl _ _ hp => exact .redecl _ _ (key hp)
    | operationError _ _ hp => exact .operationError _ _ (key hp)
    | invalidGetterParams hp => exact .invalidGetterParams (key hp)
    | invalidSetterParams hp => exact .invalidSetterParams (key hp)
    | nonStrict _ _ hp => exact .nonStrict _ _ (key hp)
  slice h := by
    rintro ⟨t, t', hp, rfl, rfl⟩
    obtain ⟨w, hw, hsh⟩ := hok.items t (List.mem_of_getElem? hp.choose_spec.1)
    rw [h.2.2.1.1.stream, h.2.2.2.1.stream]
    obtain ⟨e1, -⟩ := H.slice hp hw
    obtain ⟨w', hw', k'⟩ := hok'.items t' (List.mem_of_getElem? hp.choose_spec.2)
    rw [e1] at hw'
    cases hw'
    exact ⟨w, hw, e1, hsh, H.kind hp ▸ k'⟩
  restricted t w h := h.1.2 t w
  blame h := by
    rintro ⟨t, t', hp, rfl, rfl⟩ hg
    obtain ⟨k, k1, k2⟩ := hp
    obtain ⟨p, e1, e2⟩ := hn.position hlf hok (List.mem_of_getElem? k1)
    obtain ⟨p', e1', e2'⟩ := hn'.position hlf' hok' (List.mem_of_getElem? k2)
    rw [h.2.2.1.1.lines, e1] at hg
    cases hg
    exact ⟨p', by rw [h.2.2.2.1.lines, e1'], t, t', ⟨k, k1, k2⟩, e2, e2'⟩
  peek h := by
    obtain ⟨k, h1, h2⟩ := h.1.1.rest
    exact peek_ren H _ _ k h1.symm h2.symm
  async {s s'} h := by
    have same : ∀ b : Bool, (renTwin ρ text all text' all').post false Eq s' (.ok b s) (.ok b s') :=
      fun b => ⟨b, s', rfl, rfl, h, Nat.le_refl _⟩
    obtain ⟨t, t', hp, e, e'⟩ := h.2.1
    obtain ⟨w, hw, _⟩ := hok.items t (List.mem_of_getElem? hp.choose_spec.1)
    rw [atAsyncFunction_eq, atAsyncFunction_eq, h.2.2.1.1.stream, h.2.2.2.1.stream, e, e', hw,
      (H.slice hp hw).1]
    simp only [beq_async]
    split
    · obtain ⟨k, r1, r2⟩ := h.1.1.rest
      rw [r1, r2, List.head?_drop, List.head?_drop]
      cases hk : all[k]? with
      | none =>
        have : all'[k]? = none := by
          rw [List.getElem?_eq_none_iff] at hk ⊢; rw [H.length]; exact hk
        rw [this]
        exact same _
      | some u =>
        cases hk' : all'[k]? with
        | none =>
          rw [List.getElem?_eq_none_iff, H.length, ← List.getElem?_eq_none_iff, hk] at hk'
          cases hk'
        | some u' =>
          obtain ⟨p, e1, e2⟩ := hn.position hlf hok (List.mem_of_getElem? hk)
          obtain ⟨p', e1', e2'⟩ := hn'.position hlf' hok' (List.mem_of_getElem? hk')
          simp only
          rw [h.2.2.1.1.lines, h.2.2.2.1.lines, e1, e1']
          simp only
          have := H.sameLine ⟨t, t', hp, e ▸ h.2.2.1.2.look, e' ▸ h.2.2.2.2.look⟩
            ⟨u, u', ⟨k, hk, hk'⟩, e2, e2'⟩
          rw [this, H.kind ⟨k, hk, hk'⟩]
          exact same _
    · exact same _
  next {s s'} h := by
    have hmu := nextItem_mu s'
    have i1 := (posSys_ok hlf hok).next h.2.2.1
    have i2 := (posSys_ok hlf' hok').next h.2.2.2
    have hnp : nextItem s' ≠ .panic := by
      intro e
      rw [e] at i2
      exact i2
    obtain ⟨t, t', hp, e, e'⟩ := h.2.1
    obtain ⟨k, r1, r2⟩ := h.1.1.rest
    have key := nextGo_ren H hlf hlf' hok hok' s.rest s'.rest k r1.symm r2.symm s.look.span s'.look.span s s'
      h.2.2.1.1.stream h.2.2.2.1.stream h.1.1.ext h.1.1.tolerant h.1.1.isModule h.1.1.pendEnd
      h.1.1.foundEof (by rw [e, e']; exact H.kind hp) h.1.1.ctx h.1.1.cur h.1.1.comments
      (e ▸ hlf.span hok (List.mem_of_getElem? hp.choose_spec.1))
      (e' ▸ hlf'.span hok' (List.mem_of_getElem? hp.choose_spec.2)) h.2.2.1.2.look h.2.2.2.2.look
      (.inr ⟨t, t', hp, e ▸ h.2.2.1.2.look, e' ▸ h.2.2.2.2.look⟩) hnp
    rw [show nextItemGo s.look.span s.rest s = nextItem s from rfl,
      show nextItemGo s'.look.span s'.rest s' = nextItem s' from rfl] at key
    have keep : ∀ {u u' : St}, (u.look = s.look ∧ u'.look = s'.look ∨
        ItemAlike all all' u.look u'.look) → ItemAlike all all' u.look u'.look := by
      rintro u u' (⟨h1, h2⟩ | h1)
      · rw [h1, h2]; exact h.2.1
      · exact h1
    cases hn : nextItem s with
    | ok a u =>
      have hx : u.ext = s.ext := by have := nextItem_ext s; rw [hn] at this; exact this
      rw [hn] at key i1
      obtain ⟨u', e1, rfl, hag, hl⟩ := key
      rw [e1] at i2 hmu
      exact ⟨_, u', e1, h.2.1, ⟨⟨hag, fun t w => by rw [hx]; exact h.1.2 t w⟩, keep hl, i1.1, i2.1⟩, by
        simp only [Res.Sat] at hmu; simp; omega⟩
    | err er u =>
      have hx : u.ext = s.ext := by have := nextItem_ext s; rw [hn] at this; exact this
      rw [hn] at key i1
      obtain ⟨er', u', e1, he, hag, hl⟩ := key
      rw [e1] at i2 hmu
      exact ⟨er', u', e1, he, ⟨⟨hag, fun t w => by rw [hx]; exact h.1.2 t w⟩, keep hl, i1.1, i2.1⟩, hmu⟩
    | panic => trivial
    | diverge => trivial

end

theorem build_ren {ρ : Txt → Txt} {L : Lexer} {tolerant isModule : Bool} {text text' : Txt}
    (hlf : Breaks text (L.scan text)) (hlf' : Breaks text' (L.scan text'))
    (hok : ScannerOk text (L.scan text))
    (hok' : ScannerOk text' (L.scan text')) (H : Renamed ρ text (L.scan text) text' (L.scan text'))
    (hp : L.pendEnd text' = L.pendEnd text)
    (hx : ∀ t w, L.ext.isRestricted t (ρ w) = L.ext.isRestricted t w) :
    ∃ s t, Builder.build ⟨tolerant, isModule, text⟩ L = .ok () s ∧
      Builder.build ⟨tolerant, isModule, text'⟩ L = .ok () t ∧
      (renTwin ρ text (L.scan text) text' (L.scan text')).R s t := by
  obtain ⟨s, hb, _⟩ := build_reading (b := ⟨tolerant, isModule, text⟩) hok
  obtain ⟨t, hb', _⟩ := build_reading (b := ⟨tolerant, isModule, text'⟩) hok'
  have q1 := reachable_tracked (b := ⟨tolerant, isModule, text⟩) hlf hok ⟨s, hb, .refl⟩
  have q2 := reachable_tracked (b := ⟨tolerant, isModule, text'⟩) hlf' hok' ⟨t, hb', .refl⟩
  refine ⟨s, t, hb, hb', ?_⟩
  obtain ⟨i, s1, h1, h2⟩ := bind_eq_ok.1
    (show skipItem (Builder.init ⟨tolerant, isModule, text⟩ L) = .ok () s from hb)
  obtain ⟨i', t1, k1, k2⟩ := bind_eq_ok.1
    (show skipItem (Builder.init ⟨tolerant, isModule, text'⟩ L) = .ok () t from hb')
  have e1 : s1 = s := by cases h2; rfl
  have e2 : t1 = t := by cases k2; rfl
  subst e1 e2
  have key := nextGo_ren H hlf hlf' hok hok' (L.scan text) (L.scan text') 0 rfl rfl noItem.span noItem.span
    (Builder.init ⟨tolerant, isModule, text⟩ L) (Builder.init ⟨tolerant, isModule, text'⟩ L)
    rfl rfl rfl rfl rfl hp rfl rfl ⟨_, rfl⟩ (.inl ⟨rfl, rfl⟩) ⟨[], rfl, rfl⟩ (.noItem _) (.noItem _) ⟨[], text, rfl, rfl, rfl⟩
    ⟨[], text', rfl, rfl, rfl⟩ (.inl ⟨rfl, rfl⟩) (fun h => by
      rw [show nextItemGo noItem.span (L.scan text') (Builder.init ⟨tolerant, isModule, text'⟩ L) =
        nextItem (Builder.init ⟨tolerant, isModule, text'⟩ L) from rfl, k1] at h
      cases h)
  rw [show nextItemGo noItem.span (L.scan text) (Builder.init ⟨tolerant, isModule, text⟩ L) =
      nextItem (Builder.init ⟨tolerant, isModule, text⟩ L) from rfl,
    show nextItemGo noItem.span (L.scan text') (Builder.init ⟨tolerant, isModule, text'⟩ L) =
      nextItem (Builder.init ⟨tolerant, isModule, text'⟩ L) from rfl, h1, k1] at key
  obtain ⟨t', e, _, hag, hl⟩ := key
  cases e
  have hx1 : s1.ext = L.ext := by
    have := nextItem_ext (Builder.init ⟨tolerant, isModule, text⟩ L)
    rw [h1] at this
    exact this
  refine ⟨⟨hag, fun t w => by rw [hx1]; exact hx t w⟩, ?_, q1, q2⟩
  obtain ⟨pre, u, r1, r2⟩ := q1.1.look
  obtain ⟨pre', u', r1', r2'⟩ := q2.1.look
  obtain ⟨k, z1, z2⟩ := hag.rest
  have hk : pre.length = pre'.length := by
    have a1 := congrArg List.length r1
    have a2 := congrArg List.length r1'
    have a3 := H.length
    have a4 : t1.rest.length = s1.rest.length := by rw [z1, z2]; simp [a3]
    simp at a1 a2
    omega
  exact ⟨u, u', ⟨pre.length, by rw [r1]; simp, by rw [r1', hk]; simp⟩, r2, r2'⟩

/-- C61: let the second text be the first with its words replaced by `ρ`, which keeps different words
different and leaves the words the parser compares them with.  Whatever calls
on a parser of the first text return, the same calls on a parser of the second return with the words
replaced, and errors of the same kind at the same items, and the handler gets the same comments. -/
theorem names_opaque {ρ : Txt → Txt} [Words ρ] {L : Lexer} {tolerant isModule : Bool}
    {text text' : Txt}
    (hlf : Breaks text (L.scan text)) (hlf' : Breaks text' (L.scan text'))
    (hok : ScannerOk text (L.scan text))
    (hok' : ScannerOk text' (L.scan text')) (hn : NoLeadingBreak text (L.scan text))
    (hn' : NoLeadingBreak text' (L.scan text'))
    (H : Renamed ρ text (L.scan text) text' (L.scan text'))
    (hp : L.pendEnd text' = L.pendEnd text)
    (hx : ∀ t w, L.ext.isRestricted t (ρ w) = L.ext.isRestricted t w) {s0 s : St} {rs : List Reply}
    (hb : Builder.build ⟨tolerant, isModule, text⟩ L = .ok () s0) (hs : Session s0 rs s) :
    ∃ t0 t rs', Builder.build ⟨tolerant, isModule, text'⟩ L = .ok () t0 ∧ Session t0 rs' t ∧
      RepliesRen ρ (PlaceAlike text (L.scan text) text' (L.scan text')) rs rs' ∧
      t.comments.map (fun c => (c.1, c.2.1)) = s.comments.map (fun c => (c.1, c.2.1)) := by
  obtain ⟨s1, t0, h1, h2, hr⟩ := build_ren (tolerant := tolerant) (isModule := isModule)
    hlf hlf' hok hok' H hp hx
  rw [hb] at h1
  cases h1
  obtain ⟨rs', t, k1, k2, k3⟩ := RSim.session (renTwin_ok H hlf hlf' hok hok' hn hn') id hs t0 hr
  obtain ⟨x, c1, c2⟩ := k3.1.1.comments
  exact ⟨t0, t, rs', h2, k1, k2, c2.trans c1.symm⟩

/-- C61 for `parse`: both texts are programs, and their trees differ in the words only, or neither
is, and the errors are of the same kind at the same item. -/
theorem names_opaque_program {ρ : Txt → Txt} [Words ρ] {L : Lexer} {tolerant isModule : Bool}
    {text text' : Txt}
    (hlf : Breaks text (L.scan text)) (hlf' : Breaks text' (L.scan text'))
    (hok : ScannerOk text (L.scan text))
    (hok' : ScannerOk text' (L.scan text')) (hn : NoLeadingBreak text (L.scan text))
    (hn' : NoLeadingBreak text' (L.scan text'))
    (H : Renamed ρ text (L.scan text) text' (L.scan text'))
    (hp : L.pendEnd text' = L.pendEnd text)
    (hx : ∀ t w, L.ext.isRestricted t (ρ w) = L.ext.isRestricted t w) :
    ∃ s0 t0, Builder.build ⟨tolerant, isModule, text⟩ L = .ok () s0 ∧
      Builder.build ⟨tolerant, isModule, text'⟩ L = .ok () t0 ∧
      ((∃ p s t, parse s0 = .ok p s ∧ parse t0 = .ok (ren ρ p) t) ∨
        ∃ e e' s t, parse s0 = .err e s ∧ parse t0 = .err e' t ∧
          ErrorKind (PlaceAlike text (L.scan text) text' (L.scan text')) e e') := by
  obtain ⟨s0, t0, h1, h2, hr⟩ := build_ren (tolerant := tolerant) (isModule := isModule)
    hlf hlf' hok hok' H hp hx
  refine ⟨s0, t0, h1, h2, ?_⟩
  have key := RSim.parseCall (renTwin_ok H hlf hlf' hok hok' hn hn') s0 t0 hr
  have k1 := (calls_return s0).2.1
  have k2 := (calls_do_not_panic (b := ⟨tolerant, isModule, text⟩) hok ⟨s0, h1, .refl⟩).2.1
  cases h : parse s0 with
  | ok p s =>
    rw [h] at key
    obtain ⟨_, t, e, rfl, _⟩ := key
    exact .inl ⟨p, s, t, rfl, e⟩
  | err er s =>
    rw [h] at key
    obtain ⟨e', t, e, he, _⟩ := key
    exact .inr ⟨er, e', s, t, rfl, e, he⟩
  | panic => exact absurd h k2
  | diverge => exact absurd h k1

/-! ## An example -/

/-- `a` and `foo` change places, and so do `"s"` and `"long"`, `/x/` and `/y/g`. -/
def swapNames (w : Txt) : Txt :=
  if w = t!"a" then t!"foo" else if w = t!"foo" then t!"a"
  else if w = t!"\"s\"" then t!"\"long\"" else if w = t!"\"long\"" then t!"\"s\""
  else if w = t!"/x/" then t!"/y/g" else if w = t!"/y/g" then t!"/x/" else w

theorem swapNames_twice (w) : swapNames (swapNames w) = w := by
  unfold swapNames
  by_cases h1 : w = t!"a"
  · subst h1; decide
  · by_cases h2 : w = t!"foo"
    · subst h2; decide
    · by_cases h3 : w = t!"\"s\""
      · subst h3; decide
      · by_cases h4 : w = t!"\"long\""
        · subst h4; decide
        · by_cases h5 : w = t!"/x/"
          · subst h5; decide
          · by_cases h6 : w = t!"/y/g"
            · subst h6; decide
            · simp only [h1, h2, h3, h4, h5, h6, if_false]

instance : Words swapNames where
  inj {a b} h := by rw [← swapNames_twice a, h, swapNames_twice]
  special {w} h := by
    have : ∀ w ∈ specialWords, swapNames w = w := by decide
    exact this w h
  keyword k := by cases k <;> decide

/-- A statement with a label. -/
def renText : Txt := t!"a: b.a=\"s\",/x/"
/-- The same with another name, another string and another regular expression. -/
def renText' : Txt := t!"foo: b.foo=\"long\",/y/g"

/-- The items of the first text. -/
def renToks : List Tok := [⟨false, .ident, 0, 1⟩, ⟨false, .punct .colon, 1, 2⟩, ⟨false, .ident, 3, 4⟩,
  ⟨false, .punct .period, 4, 5⟩, ⟨false, .ident, 5, 6⟩, ⟨false, .punct .assign, 6, 7⟩,
  ⟨false, .string, 7, 10⟩, ⟨false, .punct .comma, 10, 11⟩, ⟨false, .regex, 11, 14⟩, ⟨false, .eof, 14, 14⟩]
/-- The items of the second. -/
def renToks' : List Tok := [⟨false, .ident, 0, 3⟩, ⟨false, .punct .colon, 3, 4⟩, ⟨false, .ident, 5, 6⟩,
  ⟨false, .punct .period, 6, 7⟩, ⟨false, .ident, 7, 10⟩, ⟨false, .punct .assign, 10, 11⟩,
  ⟨false, .string, 11, 17⟩, ⟨false, .punct .comma, 17, 18⟩, ⟨false, .regex, 18, 22⟩, ⟨false, .eof, 22, 22⟩]

/-- A scanner for both. -/
def renLexer : Lexer where
  ext := Demo.ext
  scan t := if t = renText then renToks else renToks'
  pendEnd _ := false

/-- A text on one line. -/
theorem oneLine_pos {text : Txt} (h : '\n' ∉ text) {n q} (k : PosAt text n q) (hl : LfOnly text) :
    q.line = 1 := by
  obtain ⟨p, u, rfl, -, rfl⟩ := k
  have key : ∀ (p : Txt) n, (∀ c ∈ p, isLineTerm c = false) → lineStarts p n = [] := by
    intro p n hp
    fun_induction lineStarts p n with
    | case1 => rfl
    | case2 => exact absurd (hp '\r' (by simp)) (by decide)
    | case3 c t n _ hc =>
      have := hp c (by simp)
      rcases hc with rfl | rfl | rfl | rfl <;> exact absurd this (by decide)
    | case4 c t n _ hc ih => exact ih fun c hc => hp c (by simp [hc])
  have := key p 0 fun c hc => by
    cases hb : isLineTerm c with
    | false => rfl
    | true => exact absurd (hl c (by simp [hc]) hb ▸ (by simp [hc] : c ∈ p ++ u)) h
  simp only [lineOf, this, List.length_nil]

theorem oneLine_noBreak {text : Txt} (h : '\n' ∉ text) (all) : NoLeadingBreak text all := by
  rintro t - p u rfl - hu
  cases u with
  | nil => cases hu
  | cons c u => cases hu; exact h (by simp)

theorem ren_place {t t' : Tok} (h : SamePlace renToks renToks' t t') :
    (t, t') ∈ renToks.zip renToks' := by
  obtain ⟨k, h1, h2⟩ := h
  exact List.mem_of_getElem? (i := k) (List.getElem?_zip_eq_some.2 ⟨h1, h2⟩)

theorem ren_same : Renamed swapNames renText renToks renText' renToks' where
  length := rfl
  nl h := by
    have : ∀ x ∈ renToks.zip renToks', x.2.nl = x.1.nl := by decide
    exact this _ (ren_place h)
  kind h := by
    have : ∀ x ∈ renToks.zip renToks', x.2.item.token = x.1.item.token := by decide
    exact this _ (ren_place h)
  slice h hw := by
    have : ∀ x ∈ renToks.zip renToks', ∀ w ∈ sliceB renText x.1.item.span.start x.1.item.span.stop,
        sliceB renText' x.2.item.span.start x.2.item.span.stop = some (swapNames w) ∧
          (x.1.item.token.isWord = false → swapNames w = w) := by decide
    exact this _ (ren_place h) _ hw
  line _ _ h1 h2 k1 k2 := by
    rw [oneLine_pos (by decide) h1 (by show ∀ c ∈ _, _; decide),
      oneLine_pos (by decide) h2 (by show ∀ c ∈ _, _; decide),
      oneLine_pos (by decide) k1 (by show ∀ c ∈ _, _; decide),
      oneLine_pos (by decide) k2 (by show ∀ c ∈ _, _; decide)]

theorem ren_scannerOk : ScannerOk renText renToks := by
  refine ⟨?_, by decide, ⟨renToks.dropLast, ⟨false, .eof, 14, 14⟩, rfl, rfl, by decide⟩⟩
  intro t ht
  simp only [renToks, List.mem_cons, List.not_mem_nil, or_false] at ht
  rcases ht with rfl | rfl | rfl | rfl | rfl | rfl | rfl | rfl | rfl | rfl <;>
    first | exact ⟨_, rfl, trivial⟩ | exact ⟨_, rfl, t!"x", t!"", rfl, by decide⟩

theorem ren_scannerOk' : ScannerOk renText' renToks' := by
  refine ⟨?_, by decide, ⟨renToks'.dropLast, ⟨false, .eof, 22, 22⟩, rfl, rfl, by decide⟩⟩
  intro t ht
  simp only [renToks', List.mem_cons, List.not_mem_nil, or_false] at ht
  rcases ht with rfl | rfl | rfl | rfl | rfl | rfl | rfl | rfl | rfl | rfl <;>
    first | exact ⟨_, rfl, trivial⟩ | exact ⟨_, rfl, t!"y", t!"g", rfl, by decide⟩

/-- C61 on `a: b.a="s",/x/`: the hypotheses hold with `a`, `"s"` and `/x/` replaced, and so does the
conclusion, as computed. -/
example :
    (Breaks renText renToks ∧ Breaks renText' renToks') ∧
    (ScannerOk renText renToks ∧ ScannerOk renText' renToks') ∧
    (NoLeadingBreak renText renToks ∧ NoLeadingBreak renText' renToks') ∧
    Renamed swapNames renText renToks renText' renToks' ∧
    renLexer.scan renText = renToks ∧ renLexer.scan renText' = renToks' ∧
    (∀ t w, renLexer.ext.isRestricted t (swapNames w) = renLexer.ext.isRestricted t w) ∧
    (match Builder.build ⟨false, false, renText⟩ renLexer with
      | .ok _ s => (parse s).outcome
      | _ => .panic) = .ok (.script [.stmt (.labeled t!"a"
        (.expr (.sequence [.assignment .equal (.member (.ident t!"b") (.ident t!"a") false)
          (.literal (.string t!"\"s\"")), .literal (.regex ⟨t!"x", t!""⟩)])))]) ∧
    (match Builder.build ⟨false, false, renText'⟩ renLexer with
      | .ok _ s => (parse s).outcome
      | _ => .panic) = .ok (.script [.stmt (.labeled t!"foo"
        (.expr (.sequence [.assignment .equal (.member (.ident t!"b") (.ident t!"foo") false)
          (.literal (.string t!"\"long\"")), .literal (.regex ⟨t!"y", t!"g"⟩)])))]) := by
  refine ⟨⟨?_, ?_⟩, ⟨ren_scannerOk, ren_scannerOk'⟩, ⟨oneLine_noBreak (by decide) _,
    oneLine_noBreak (by decide) _⟩, ren_same, by decide, by decide, ?_, ?_, ?_⟩
  · exact LfOnly.breaks (by show ∀ c ∈ _, _; decide) _
  · exact LfOnly.breaks (by show ∀ c ∈ _, _; decide) _
  · exact fun _ _ => rfl
  · kernel_rfl
  · kernel_rfl

end Ressa
