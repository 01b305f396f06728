import Verif.Proof.Sim
import Verif.Props.Positions
import Verif.Props.Locality

/-!
# Comments do not influence parsing (C43)
-/

namespace Ressa

/-- The item is not a comment. -/
abbrev notComment (t : Tok) : Bool := !t.item.token.isComment

/-- The same error, except that the position of the item read last may differ. -/
def SameError (e e' : Error) : Prop := e' = e ∨ ∃ k p p', AtCur k ∧ e = k p ∧ e' = k p'

/-- The second state is the first without the comments still to come. -/
structure Agree (s s' : St) : Prop where
  ext : s'.ext = s.ext
  tolerant : s'.tolerant = s.tolerant
  isModule : s'.isModule = s.isModule
  stream : s'.stream = s.stream
  lines : s'.lines = s.lines
  pendEnd : s'.pendEnd = s.pendEnd
  look : s'.look = s.look
  foundEof : s'.foundEof = s.foundEof
  rest : s'.rest = s.rest.filter notComment
  ctx : s'.ctx = s.ctx

/-- The two runs of the loop of `nextItem` agree, unless the second panics. -/
theorem nextGo_agree : ∀ (ts : List Tok) (span span' : Span) (s s' : St),
    s'.ext = s.ext → s'.tolerant = s.tolerant → s'.isModule = s.isModule →
    s'.stream = s.stream → s'.lines = s.lines → s'.pendEnd = s.pendEnd → s'.look = s.look →
    s'.foundEof = s.foundEof → (∃ b, s'.ctx = { s.ctx with hasLineTerm := b }) →
    (∀ t ∈ ts, sliceB s.stream t.item.span.start t.item.span.stop ≠ none) →
    nextItemGo span' (ts.filter notComment) s' ≠ .panic →
    match nextItemGo span ts s with
    | .ok a t => ∃ t', nextItemGo span' (ts.filter notComment) s' = .ok a t' ∧ Agree t t'
    | .err e t => ∃ t', nextItemGo span' (ts.filter notComment) s' = .err e t' ∧ Agree t t'
    | .panic => True
    | .diverge => True
  | [], span, span', s, s', h1, h2, h3, h4, h5, h6, h7, h8, ⟨b, h9⟩, _, hp => by
    simp only [List.filter_nil, nextItemGo, h7, h8, h6]
    by_cases he : s.look.token.isEof = true
    · by_cases hf : s.foundEof = true
      · rw [if_pos he, if_pos hf, if_pos he, if_pos hf]
        exact ⟨_, rfl, h1, h2, h3, h4, h5, rfl, rfl, hf ▸ rfl, rfl, by simp [h9]⟩
      · rw [if_pos he, if_neg hf, if_pos he, if_neg hf]
        exact ⟨_, rfl, h1, h2, h3, h4, h5, rfl, rfl, rfl, rfl, by simp [h9]⟩
    · rw [if_neg he, if_neg he]
      exact ⟨_, rfl, h1, h2, h3, h4, h5, rfl, rfl, rfl, rfl, by simp [h9]⟩
  | t :: ts, span, span', s, s', h1, h2, h3, h4, h5, h6, h7, h8, ⟨b, h9⟩, hs, hp => by
    have hs' : ∀ t ∈ ts, sliceB s.stream t.item.span.start t.item.span.stop ≠ none :=
      fun u hu => hs u (by simp [hu])
    by_cases hc : t.item.token.isComment = true
    · obtain ⟨kind, hk⟩ : ∃ k, t.item.token = .comment k := by
        cases h : t.item.token <;> rw [h] at hc <;> cases hc
        exact ⟨_, rfl⟩
      have hf : (t :: ts).filter notComment = ts.filter notComment := by
        rw [List.filter_cons_of_neg]; simp [notComment, hc]
      rw [hf] at hp ⊢
      rw [Cut.nextItemGo_comment hk]
      cases updatePositions s.stream s.lookPos span t.item.span.start with
      | none => trivial
      | some c =>
        simp only
        cases hsl : sliceB s.stream t.item.span.start t.item.span.stop with
        | none => exact absurd hsl (hs t (by simp))
        | some c =>
          exact nextGo_agree ts _ _ _ _ h1 h2 h3 h4 h5 h6 h7 h8 ⟨b, by simp [h9]⟩ hs' hp
    · have hc' : t.item.token.isComment = false := by simpa using hc
      have hf : (t :: ts).filter notComment = t :: ts.filter notComment := by
        rw [List.filter_cons_of_pos]; simp [notComment, hc']
      rw [hf] at hp ⊢
      rw [Cut.nextItemGo_token hc'] at hp ⊢
      rw [Cut.nextItemGo_token hc']
      cases updatePositions s.stream s.lookPos span t.item.span.start with
      | none => trivial
      | some c =>
        cases hu : updatePositions s'.stream s'.lookPos span' t.item.span.start with
        | none => rw [hu] at hp; exact absurd rfl hp
        | some c' =>
          rw [h7]
          exact ⟨_, rfl, h1, h2, h3, h4, h5, h6, rfl, h8, rfl, by simp [h9]⟩

theorem Breaks.filter {text : Txt} {all : List Tok} (h : Breaks text all) :
    Breaks text (all.filter notComment) :=
  h.mono fun _ ht => (List.mem_filter.1 ht).1

theorem ScannerOk.filter {text : Txt} {all : List Tok} (h : ScannerOk text all) :
    ScannerOk text (all.filter notComment) where
  items t ht := h.items t (List.mem_filter.1 ht).1
  ordered := h.ordered.filter _
  last := by
    obtain ⟨body, e, rfl, he, hb⟩ := h.last
    refine ⟨body.filter notComment, e, ?_, he, fun t ht => hb t (List.mem_filter.1 ht).1⟩
    simp [notComment, he, Token.isComment]

theorem PosAt.unique {text : Txt} {n : Nat} {a b : Position} (h : PosAt text n a)
    (k : PosAt text n b) : a = b := by
  obtain ⟨p, u, e, hp, rfl⟩ := h
  obtain ⟨p', u', e', hp', rfl⟩ := k
  obtain ⟨rfl, _⟩ := append_inj_blen (e.symm.trans e') (by omega)
  rfl

/-- No comment directly after an item spelled `async`. -/
def NoCommentAfterAsync (text : Txt) (all : List Tok) : Prop :=
  ∀ pre a c post, all = pre ++ a :: c :: post → c.item.token.isComment = true →
    sliceB text a.item.span.start a.item.span.stop ≠ some t!"async"

/-- The simulation of a parser by one that does not see the comments. -/
def commentSim (text : Txt) (all : List Tok) : Sim where
  good _ := True
  R s s' := Agree s s' ∧ (posSys text all).inv s ∧ (posSys text (all.filter notComment)).inv s'
  out _ := False
  sameErr := SameError

theorem peek_filter (ts : List Tok) : peekSkipComments (ts.filter notComment) = peekSkipComments ts := by
  induction ts with
  | nil => rfl
  | cons t ts ih =>
    by_cases hc : t.item.token.isComment = true
    · rw [List.filter_cons_of_neg (by simp [notComment, hc]), ih, peekSkipComments, if_pos hc]
    · rw [List.filter_cons_of_pos (by simp [notComment, hc]), peekSkipComments, if_neg hc,
        peekSkipComments, if_neg hc]

theorem commentSim_ok {text : Txt} {all : List Tok} (hlf : Breaks text all) (hok : ScannerOk text all)
    (ha : NoCommentAfterAsync text all) : (commentSim text all).Ok where
  errRefl _ := .inl rfl
  look h := ⟨h.1.look, trivial⟩
  lookOut _ := trivial
  ctx h := h.1.ctx
  ctxMod c h := ⟨⟨h.1.ext, h.1.tolerant, h.1.isModule, h.1.stream, h.1.lines, h.1.pendEnd, h.1.look,
    h.1.foundEof, h.1.rest, rfl⟩, (posSys_ok hlf hok).ctxInv c h.2.1,
    (posSys_ok hlf.filter hok.filter).ctxInv c h.2.2⟩
  ctxOut _ h := h
  ext h := h.1.ext
  tolerant h := h.1.tolerant
  isModule h := h.1.isModule
  lookPos {s s'} h := by
    have h1 := h.2.1.2.look
    have h2 := h.2.2.2.look
    rw [h.1.look] at h2
    exact h2.unique h1
  cur _ hk := .inr ⟨_, _, _, hk, rfl, rfl⟩
  slice h _ := by rw [h.1.stream]
  pos h _ := by rw [h.1.lines]
  peek h := by rw [h.1.rest, peek_filter]
  async {s s'} h := by
    have hpos : s'.lookPos = s.lookPos := by
      have h1 := h.2.1.2.look
      have h2 := h.2.2.2.look
      rw [h.1.look] at h2
      exact h2.unique h1
    have same : ∀ b : Bool, (commentSim text all).post false Any s' (.ok b s) (.ok b s') :=
      fun b => ⟨trivial, .inr ⟨_, rfl, h, Nat.le_refl _⟩⟩
    rw [atAsyncFunction_eq, atAsyncFunction_eq, h.1.stream, h.1.look, h.1.rest, h.1.lines, hpos]
    cases hsl : sliceB s.stream s.look.span.start s.look.span.stop with
    | none => trivial
    | some c =>
      simp only
      split
      · next hc =>
        obtain ⟨pre, t, h2, h3⟩ := h.2.1.1.look
        have hst := h.2.1.1.stream
        have hln := h.2.1.1.lines
        cases hr : s.rest with
        | nil => exact same _
        | cons t' ts =>
          have hn : t'.item.token.isComment = false := by
            cases hcm : t'.item.token.isComment with
            | false => rfl
            | true =>
              exact absurd (by rw [← h3, ← hst, hsl, eq_of_beq hc]) (ha pre t t' ts (hr ▸ h2) hcm)
          rw [List.filter_cons_of_pos (by simp [notComment, hn])]
          simp only [List.head?_cons]
          cases getItemPosition s.lines t'.item.span.start with
          | none => trivial
          | some p => exact same _
      · exact same _
  next {s s'} h := by
    refine Sim.post_next ?_
    have hmu := nextItem_mu s'
    have i1 := (posSys_ok hlf hok).next h.2.1
    have i2 := (posSys_ok hlf.filter hok.filter).next h.2.2
    have hnp : nextItem s' ≠ .panic := by
      intro e
      rw [e] at i2
      exact i2
    obtain ⟨pre, t, h2, h3⟩ := h.2.1.1.look
    have hst := h.2.1.1.stream
    have key := nextGo_agree s.rest s.look.span s.look.span s s' h.1.ext h.1.tolerant h.1.isModule
      h.1.stream h.1.lines h.1.pendEnd h.1.look h.1.foundEof ⟨s.ctx.hasLineTerm, h.1.ctx⟩
      (fun u hu => by
        obtain ⟨raw, hr, _⟩ := hok.items u (by simp [h2, hu])
        rw [hst, hr]; nofun)
      (by have e : nextItem s' = nextItemGo s.look.span (s.rest.filter notComment) s' := by
            rw [nextItem, h.1.look, h.1.rest]
          rw [← e]; exact hnp)
    rw [show nextItemGo s.look.span (s.rest.filter notComment) s' = nextItem s' by
      rw [nextItem, h.1.look, h.1.rest]] at key
    rw [show nextItemGo s.look.span s.rest s = nextItem s from rfl] at key
    cases hn : nextItem s with
    | ok a t =>
      rw [hn] at key i1
      obtain ⟨t', e, hag⟩ := key
      rw [e] at i2 hmu
      exact ⟨trivial, .inr ⟨t', e, ⟨hag, i1.1, i2.1⟩, by simp only [Res.Sat] at hmu; simp; omega⟩⟩
    | err er t =>
      rw [hn] at key i1
      obtain ⟨t', e, hag⟩ := key
      rw [e] at i2 hmu
      exact .inr ⟨er, t', e, .inl rfl, ⟨hag, i1.1, i2.1⟩, hmu⟩
    | panic => trivial
    | diverge => trivial
  nextOut h := h.elim

/-! ## C43 -/

/-- Two replies are the same, errors up to the position of the item read last. -/
inductive SameReply : Reply → Reply → Prop
  | same (r) : SameReply r r
  | nextErr {k p p'} : AtCur k → SameReply (.nextErr (k p)) (.nextErr (k p'))
  | parseErr {k p p'} : AtCur k → SameReply (.parseErr (k p)) (.parseErr (k p'))
  | exprErr {k p p'} : AtCur k → SameReply (.exprErr (k p)) (.exprErr (k p'))

/-- The same for all calls of a session. -/
inductive SameReplies : List Reply → List Reply → Prop
  | nil : SameReplies [] []
  | cons {r r' rs rs'} : SameReply r r' → SameReplies rs rs' → SameReplies (r :: rs) (r' :: rs')

theorem sameReplies {text all rs rs'} (h : Sim.Sames (commentSim text all) rs rs') :
    SameReplies rs rs' := by
  induction h with
  | nil => exact .nil
  | cons h _ ih =>
    refine .cons ?_ ih
    cases h with
    | nextErr h =>
      obtain rfl | ⟨k, p, p', hk, rfl, rfl⟩ := h
      · exact .same _
      · exact .nextErr hk
    | parseErr h =>
      obtain rfl | ⟨k, p, p', hk, rfl, rfl⟩ := h
      · exact .same _
      · exact .parseErr hk
    | exprErr h =>
      obtain rfl | ⟨k, p, p', hk, rfl, rfl⟩ := h
      · exact .same _
      · exact .exprErr hk
    | _ => exact .same _

/-- The scanner without its comments. -/
def Lexer.skipComments (L : Lexer) : Lexer where
  ext := L.ext
  scan t := (L.scan t).filter notComment
  pendEnd := L.pendEnd

theorem build_agree {L : Lexer} {b : Builder} (hlf : Breaks b.js (L.scan b.js))
    (hok : ScannerOk b.js (L.scan b.js)) :
    ∃ s t, b.build L = .ok () s ∧ b.build L.skipComments = .ok () t ∧
      (commentSim b.js (L.scan b.js)).R s t := by
  obtain ⟨s, hb, _⟩ := build_reading hok
  obtain ⟨t, hb', _⟩ := build_reading (L := L.skipComments) (b := b) hok.filter
  refine ⟨s, t, hb, hb', ?_, reachable_tracked hlf hok ⟨s, hb, .refl⟩,
    reachable_tracked (L := L.skipComments) hlf.filter hok.filter ⟨t, hb', .refl⟩⟩
  obtain ⟨i, s1, h1, h2⟩ := bind_eq_ok.1 (show skipItem (b.init L) = .ok () s from hb)
  obtain ⟨i', t1, k1, k2⟩ := bind_eq_ok.1 (show skipItem (b.init L.skipComments) = .ok () t from hb')
  have e1 : s1 = s := by cases h2; rfl
  have e2 : t1 = t := by cases k2; rfl
  subst e1 e2
  have key := nextGo_agree (L.scan b.js) noItem.span noItem.span (b.init L) (b.init L.skipComments)
    rfl rfl rfl rfl rfl rfl rfl rfl ⟨_, rfl⟩
    (fun u hu => by
      obtain ⟨raw, hr, _⟩ := hok.items u hu
      exact fun h => by rw [show (b.init L).stream = b.js from rfl, hr] at h; cases h)
    (fun h => by
      rw [show nextItemGo noItem.span ((L.scan b.js).filter notComment) (b.init L.skipComments) =
        nextItem (b.init L.skipComments) from rfl, k1] at h
      cases h)
  rw [show nextItemGo noItem.span (L.scan b.js) (b.init L) = nextItem (b.init L) from rfl,
    show nextItemGo noItem.span ((L.scan b.js).filter notComment) (b.init L.skipComments) =
        nextItem (b.init L.skipComments) from rfl, h1, k1] at key
  obtain ⟨t', e, hag⟩ := key
  cases e
  exact hag

/-- C43: let the text have no line terminator but LF and no comment right after `async`.  Whatever
calls on a parser return, a parser whose scanner leaves out the comments returns too, except for the
position of the previous item in errors without a token. -/
theorem comments_irrelevant {L : Lexer} {b : Builder} (hlf : Breaks b.js (L.scan b.js))
    (hok : ScannerOk b.js (L.scan b.js)) (ha : NoCommentAfterAsync b.js (L.scan b.js))
    {s0 s : St} {rs : List Reply} (hb : b.build L = .ok () s0) (hs : Session s0 rs s) :
    ∃ t0 t rs', b.build L.skipComments = .ok () t0 ∧ Session t0 rs' t ∧ SameReplies rs rs' := by
  obtain ⟨s1, t0, h1, h2, hr⟩ := build_agree hlf hok
  rw [hb] at h1
  cases h1
  obtain ⟨rs', t, k1, k2, _⟩ := Sim.session (commentSim_ok hlf hok ha) hs id t0 hr
  exact ⟨t0, t, rs', h2, k1, sameReplies k2⟩

theorem commentSim_back {text : Txt} {all : List Tok} (hlf : Breaks text all) (hok : ScannerOk text all)
    (ha : NoCommentAfterAsync text all) {t rs' t'} (h : Session t rs' t') :
    ∀ s, (commentSim text all).R s t → ∃ rs s', Session s rs s' ∧ SameReplies rs rs' := by
  have H := commentSim_ok hlf hok ha
  have okCase : ∀ {α : Type} {d : Bool} {m : P α} {a : α} {s t t1}, (commentSim text all).rel d Any m m →
      (∀ s, Reading text all s → m s ≠ .panic ∧ m s ≠ .diverge) →
      (commentSim text all).R s t → m t = .ok a t1 →
      ∃ s1, m s = .ok a s1 ∧ (commentSim text all).R s1 t1 := by
    intro α d m a s t t1 hm hp hr e
    have := hm.1 s t hr
    have hp := hp s hr.2.1.1
    cases hms : m s with
    | ok b s1 =>
      rw [hms] at this
      obtain ⟨_, ho | ⟨t2, h1, h2, _⟩⟩ := this
      · exact ho.elim
      · rw [e] at h1; cases h1; exact ⟨s1, rfl, h2⟩
    | err er s1 =>
      rw [hms] at this
      obtain ho | ⟨e', t2, h1, _⟩ := this
      · exact ho.elim
      · rw [e] at h1; cases h1
    | panic => exact absurd hms hp.1
    | diverge => exact absurd hms hp.2
  have errCase : ∀ {α : Type} {d : Bool} {m : P α} {er : Error} {s t t1},
      (commentSim text all).rel d Any m m →
      (∀ s, Reading text all s → m s ≠ .panic ∧ m s ≠ .diverge) →
      (commentSim text all).R s t → m t = .err er t1 →
      ∃ e s1, m s = .err e s1 ∧ SameError e er ∧ (commentSim text all).R s1 t1 := by
    intro α d m er s t t1 hm hp hr e
    have := hm.1 s t hr
    have hp := hp s hr.2.1.1
    cases hms : m s with
    | ok b s1 =>
      rw [hms] at this
      obtain ⟨_, ho | ⟨t2, h1, h2, _⟩⟩ := this
      · exact ho.elim
      · rw [e] at h1; cases h1
    | err er' s1 =>
      rw [hms] at this
      obtain ho | ⟨e', t2, h1, h2, h3, _⟩ := this
      · exact ho.elim
      · rw [e] at h1; cases h1; exact ⟨er', s1, rfl, h2, h3⟩
    | panic => exact absurd hms hp.1
    | diverge => exact absurd hms hp.2
  have ofPost : ∀ {α : Type} {d : Bool} {s : St} {r : Res α}, (safeSys text all).post d Any s r →
      r ≠ .panic ∧ r ≠ .diverge := by
    intro α d s r h
    constructor <;> rintro rfl <;> exact h
  have s1 : ∀ s, Reading text all s → next s ≠ .panic ∧ next s ≠ .diverge :=
    fun s h => ofPost (Sys.next_post (safeSys_ok hok) h)
  have s2 : ∀ s, Reading text all s → parse s ≠ .panic ∧ parse s ≠ .diverge :=
    fun s h => ofPost (Sys.parse_post (safeSys_ok hok) h)
  have s3 : ∀ s, Reading text all s → full.expression s ≠ .panic ∧ full.expression s ≠ .diverge :=
    fun s h => ofPost (Sys.expression_post (safeSys_ok hok) h)
  induction h with
  | nil => exact fun s _ => ⟨[], s, .nil, .nil⟩
  | nextOk h _ ih =>
    intro s hr
    obtain ⟨s1, h1, h2⟩ := okCase (Sim.nextCall H) s1 hr h
    obtain ⟨rs, s', k1, k2⟩ := ih s1 h2
    exact ⟨_, s', .nextOk h1 k1, .cons (.same _) k2⟩
  | parseOk h _ ih =>
    intro s hr
    obtain ⟨s1, h1, h2⟩ := okCase (Sim.parseCall H) s2 hr h
    obtain ⟨rs, s', k1, k2⟩ := ih s1 h2
    exact ⟨_, s', .parseOk h1 k1, .cons (.same _) k2⟩
  | exprOk h _ ih =>
    intro s hr
    obtain ⟨s1, h1, h2⟩ := okCase (Sim.exprCall H) s3 hr h
    obtain ⟨rs, s', k1, k2⟩ := ih s1 h2
    exact ⟨_, s', .exprOk h1 k1, .cons (.same _) k2⟩
  | nextErr h _ ih =>
    intro s hr
    obtain ⟨e, s1, h1, he, h2⟩ := errCase (Sim.nextCall H) s1 hr h
    obtain ⟨rs, s', k1, k2⟩ := ih s1 h2
    refine ⟨_, s', .nextErr h1 k1, .cons ?_ k2⟩
    obtain rfl | ⟨k, p, p', hk, rfl, rfl⟩ := he
    · exact .same _
    · exact .nextErr hk
  | parseErr h _ ih =>
    intro s hr
    obtain ⟨e, s1, h1, he, h2⟩ := errCase (Sim.parseCall H) s2 hr h
    obtain ⟨rs, s', k1, k2⟩ := ih s1 h2
    refine ⟨_, s', .parseErr h1 k1, .cons ?_ k2⟩
    obtain rfl | ⟨k, p, p', hk, rfl, rfl⟩ := he
    · exact .same _
    · exact .parseErr hk
  | exprErr h _ ih =>
    intro s hr
    obtain ⟨e, s1, h1, he, h2⟩ := errCase (Sim.exprCall H) s3 hr h
    obtain ⟨rs, s', k1, k2⟩ := ih s1 h2
    refine ⟨_, s', .exprErr h1 k1, .cons ?_ k2⟩
    obtain rfl | ⟨k, p, p', hk, rfl, rfl⟩ := he
    · exact .same _
    · exact .exprErr hk

/-- C43, the other direction: comments never add results. -/
theorem comments_irrelevant_converse {L : Lexer} {b : Builder} (hlf : Breaks b.js (L.scan b.js))
    (hok : ScannerOk b.js (L.scan b.js)) (ha : NoCommentAfterAsync b.js (L.scan b.js))
    {t0 t : St} {rs' : List Reply} (hb : b.build L.skipComments = .ok () t0)
    (hs : Session t0 rs' t) :
    ∃ s0 s rs, b.build L = .ok () s0 ∧ Session s0 rs s ∧ SameReplies rs rs' := by
  obtain ⟨s0, t1, h1, h2, hr⟩ := build_agree hlf hok
  rw [hb] at h2
  cases h2
  obtain ⟨rs, s, k1, k2⟩ := commentSim_back hlf hok ha hs s0 hr
  exact ⟨s0, s, rs, h1, k1, k2⟩

/-- C43 for `parse`: the program is the same with and without the comments. -/
theorem comments_same_program {L : Lexer} {b : Builder} (hlf : Breaks b.js (L.scan b.js))
    (hok : ScannerOk b.js (L.scan b.js)) (ha : NoCommentAfterAsync b.js (L.scan b.js)) (p : Program) :
    (∃ s0 s, b.build L = .ok () s0 ∧ parse s0 = .ok p s) ↔
      ∃ t0 t, b.build L.skipComments = .ok () t0 ∧ parse t0 = .ok p t := by
  constructor
  · rintro ⟨s0, s, hb, hp⟩
    obtain ⟨t0, t, rs', k1, k2, k3⟩ := comments_irrelevant hlf hok ha hb (.parseOk hp .nil)
    cases k3 with
    | cons h k3 =>
      cases h
      cases k3
      cases k2 with
      | parseOk h _ => exact ⟨t0, _, k1, h⟩
  · rintro ⟨t0, t, hb, hp⟩
    obtain ⟨s0, s, rs, k1, k2, k3⟩ := comments_irrelevant_converse hlf hok ha hb (.parseOk hp .nil)
    generalize hr : [Reply.parseOk p] = rs' at k3
    cases k3 with
    | nil => cases hr
    | cons h k3 =>
      injection hr with h1 h2
      subst h1 h2
      cases h
      cases k3
      cases k2 with
      | parseOk h _ => exact ⟨s0, _, k1, h⟩

/-- C43 on `a /* c */ ; b`: the hypotheses hold, and so do both sides of the equivalence. -/
example :
    let f := [Demo.id t!"a", ⟨false, .comment .multiLine, t!"/* c */"⟩, Demo.p .semiColon t!";",
      Demo.id t!"b"]
    LfOnly (Demo.text f) ∧ ScannerOk (Demo.text f) ((Demo.lexer f).scan (Demo.text f)) ∧
    NoCommentAfterAsync (Demo.text f) ((Demo.lexer f).scan (Demo.text f)) ∧
    Demo.parse f = .ok (.script [.stmt (.expr (.ident t!"a")), .stmt (.expr (.ident t!"b"))]) ∧
    (match (Demo.builder f).build (Demo.lexer f).skipComments with
      | .ok _ s => (parse s).outcome
      | _ => .panic) =
      .ok (.script [.stmt (.expr (.ident t!"a")), .stmt (.expr (.ident t!"b"))]) := by
  intro f
  refine ⟨?_, Demo.scannerOk (by simp [f, Demo.PieceOk, ShapeOk, Demo.id, Demo.p]), ?_, ?_, ?_⟩
  · show ∀ c ∈ _, _
    decide
  · intro pre a c post e hc hs
    have hl : pre.length < 5 := by
      have := congrArg List.length e
      simp [Demo.lexer, Demo.items, f] at this
      omega
    have hd : (Demo.items f 0).drop pre.length = a :: c :: post := by
      rw [show Demo.items f 0 = pre ++ a :: c :: post from e]; simp
    have : ∀ n < 5, ∀ a c post, (Demo.items f 0).drop n = a :: c :: post →
        c.item.token.isComment = true → a = ⟨false, .ident, 1, 2⟩ := by
      intro n hn a c post h hc
      rcases n with _ | _ | _ | _ | _ | n
      · injection h with h _; exact h.symm
      · injection h with _ h; injection h with h _; subst h; cases hc
      · injection h with _ h; injection h with h _; subst h; cases hc
      · injection h with _ h; injection h with h _; subst h; cases hc
      · injection h with _ h; cases h
      · omega
    rw [this _ hl _ _ _ hd hc] at hs
    revert hs
    decide
  · kernel_rfl
  · kernel_rfl

/-- Why C43 asks for no comment right after `async`: with the comment, `async /* c */ function f(){}`
is rejected, without it is accepted. -/
theorem comment_after_async :
    let f := [Demo.id t!"async", ⟨false, .comment .multiLine, t!"/* c */"⟩, Demo.k .function,
      Demo.id t!"f", Demo.p .openParen t!"(", Demo.p .closeParen t!")", Demo.p .openBrace t!"{",
      Demo.p .closeBrace t!"}"]
    (Demo.parse f).isOk = false ∧
    (match (Demo.builder f).build (Demo.lexer f).skipComments with
      | .ok _ s => (parse s).outcome
      | _ => .panic).isOk = true := by
  constructor <;> kernel_rfl

end Ressa
