import Verif.Props.Settings
import Verif.Spec.Scanner

/-!
# Reading items and comments (C10, C11)
-/

namespace Ressa

theorem lastItem_comment {pre : List Tok} {t : Tok} {k} (h : t.item.token = .comment k) :
    lastItem (pre ++ [t]) = lastItem pre := by
  simp [lastItem, List.filter_append, h, Token.isComment]

theorem lastItem_token {pre : List Tok} {t : Tok} (h : t.item.token.isComment = false) :
    lastItem (pre ++ [t]) = t.item := by
  simp [lastItem, List.filter_append, h]

theorem commentsOf_append {text : Txt} (pre post : List Tok) :
    commentsOf text (pre ++ post) = commentsOf text pre ++ commentsOf text post := by
  simp [commentsOf, List.filterMap_append]

theorem commentsOf_token {text : Txt} {t : Tok} (h : t.item.token.isComment = false) :
    commentsOf text [t] = [] := by
  cases ht : t.item.token <;> simp [commentsOf, ht]
  simp [ht, Token.isComment] at h

/-- The parser has read exactly `pre`. -/
structure HasRead (text : Txt) (all pre : List Tok) (s : St) : Prop where
  stream : s.stream = text
  split : all = pre ++ s.rest
  look : s.look = lastItem pre
  comments : s.comments = commentsOf text pre

/-- Later states have read at least as much and delivered at least as many comments. -/
structure ReadMore (s s' : St) : Prop where
  rest : s'.rest <:+ s.rest
  comments : s.comments <+: s'.comments

theorem Next.reads {text : Txt} {all : List Tok} {span ts s r} (h : Next span ts s r) :
    ∀ pre, s.stream = text → all = pre ++ ts → s.look = lastItem pre →
      s.comments = commentsOf text pre →
    r.Sat (fun i s' => i = s.look ∧ (∃ post, HasRead text all (pre ++ post) s') ∧ s'.rest <:+ ts ∧
        s.comments <+: s'.comments)
      (fun _ s' => (∃ post, HasRead text all (pre ++ post) s') ∧ s'.rest <:+ ts ∧
        s.comments <+: s'.comments) True := by
  induction h with
  | eof =>
    intro pre h1 h2 h3 h4
    exact ⟨rfl, ⟨[], h1, by simpa using h2, by simpa using h3, by simpa using h4⟩, by simp, by simp⟩
  | after =>
    intro pre h1 h2 h3 h4
    exact ⟨⟨[], h1, by simpa using h2, by simpa using h3, by simpa using h4⟩, by simp, by simp⟩
  | missing =>
    intro pre h1 h2 h3 h4
    exact ⟨⟨[], h1, by simpa using h2, by simpa using h3, by simpa using h4⟩, by simp, by simp⟩
  | bad => intros; trivial
  | @badComment span t ts s cur look kind hu ht hs =>
    intro pre h1 h2 h3 h4
    refine ⟨⟨[t], h1, by simpa using h2, ?_, ?_⟩, List.suffix_cons _ _, by simp⟩
    · rw [lastItem_comment ht]; exact h3
    · rw [commentsOf_append, ← h4, ← h1]
      simp [commentsOf, ht, hs]
  | @comment span t ts s cur look kind c r hu ht hs _ ih =>
    intro pre h1 h2 h3 h4
    have := ih (pre ++ [t]) h1 (by simpa using h2)
      (by rw [lastItem_comment ht]; exact h3)
      (by
        rw [commentsOf_append, ← h4]
        simp [commentsOf, ht, h1 ▸ hs])
    have hpre : ∀ c', s.comments ++ [(kind, c, t.item.span)] <+: c' → s.comments <+: c' :=
      fun c' h => (List.prefix_append _ _).trans h
    cases r with
    | ok i s' =>
      obtain ⟨hi, ⟨post, hr⟩, hs', hc⟩ := this
      exact ⟨hi, ⟨t :: post, by simpa using hr⟩, hs'.trans (List.suffix_cons _ _), hpre _ hc⟩
    | err e s' =>
      obtain ⟨⟨post, hr⟩, hs', hc⟩ := this
      exact ⟨⟨t :: post, by simpa using hr⟩, hs'.trans (List.suffix_cons _ _), hpre _ hc⟩
    | panic => trivial
    | diverge => exact this
  | @token span t ts s cur look hu ht =>
    intro pre h1 h2 h3 h4
    refine ⟨rfl, ⟨[t], h1, by simpa using h2, ?_, ?_⟩, List.suffix_cons _ _, by simp⟩
    · rw [lastItem_token ht]
    · rw [commentsOf_append, commentsOf_token ht]; simpa using h4

/-- The parser reads the items in order. -/
def readSys (text : Txt) (all : List Tok) : Sys where
  good _ := True
  inv s := ∃ pre, HasRead text all pre s
  ord := ReadMore
  errOk _ _ := True
  panicOk := True

theorem readSys_ok (text : Txt) (all : List Tok) : SysOk (readSys text all) where
  refl _ := ⟨List.suffix_refl _, List.prefix_refl _⟩
  trans h k := ⟨k.rest.trans h.rest, h.comments.trans k.comments⟩
  ctxInv := fun _ ⟨pre, h⟩ => ⟨pre, h.stream, h.split, h.look, h.comments⟩
  ctxOrd _ := ⟨List.suffix_refl _, List.prefix_refl _⟩
  next {s} := by
    rintro ⟨pre, h⟩
    have := (nextItem_spec s).reads (all := all) pre h.stream h.split h.look h.comments
    revert this
    cases nextItem s with
    | ok a s' => rintro ⟨_, ⟨post, h⟩, h1, h2⟩; exact ⟨⟨_, h⟩, ⟨h1, h2⟩, trivial⟩
    | err a s' => rintro ⟨⟨post, h⟩, h1, h2⟩; exact ⟨⟨_, h⟩, ⟨h1, h2⟩, trivial⟩
    | panic => exact fun _ => trivial
    | diverge => exact fun h => h
  look _ := trivial
  slice _ _ _ := ⟨trivial, fun _ _ => trivial⟩
  pos _ _ _ := trivial
  errPos _ _ _ _ := trivial
  peek _ _ _ := trivial
  reinterpret _ := trivial
  label _ _ := trivial
  fail _ := trivial
  template _ _ _ _ := ⟨fun _ => trivial, fun _ _ => trivial⟩
  regex _ _ _ := by split <;> intros <;> trivial

theorem init_hasRead (L : Lexer) (b : Builder) :
    HasRead b.js (L.scan b.js) [] (b.init L) := ⟨rfl, rfl, rfl, rfl⟩

/-! ## C11 -/

/-- C11: in every reachable state the items split into those read and those not read yet, and the
look-ahead is the last non-comment item read. -/
theorem items_read_in_order {L : Lexer} {b : Builder} {s : St} (h : Reachable L b s) :
    ∃ pre, L.scan b.js = pre ++ s.rest ∧ s.look = lastItem pre := by
  obtain ⟨_, ⟨pre, h⟩, _⟩ :=
    Sys.reachable (readSys_ok b.js (L.scan b.js)) h ⟨_, init_hasRead L b⟩
  exact ⟨pre, h.split, h.look⟩

/-- C11: no call puts an item back; the unread items only get fewer. -/
theorem items_not_put_back {L : Lexer} {b : Builder} {s s' : St} (h : Reachable L b s)
    (hc : Calls s s') : s'.rest <:+ s.rest := by
  obtain ⟨_, hi, _⟩ :=
    Sys.reachable (readSys_ok b.js (L.scan b.js)) h ⟨_, init_hasRead L b⟩
  exact (Sys.calls (readSys_ok b.js (L.scan b.js)) hc hi).2.2.rest

/-- C11: `next_item` returns the look-ahead and replaces it by the next non-comment item. -/
theorem nextItem_returns_look {s s' : St} {i : Item} (h : nextItem s = .ok i s') : i = s.look :=
  nextItem_look h

/-! ## C10 -/

/-- C10: in every reachable state the comments delivered are exactly the comments among the items
read, once each, in order, with kind, source text and span. -/
theorem comments_delivered {L : Lexer} {b : Builder} {s : St} (h : Reachable L b s) :
    ∃ pre, L.scan b.js = pre ++ s.rest ∧ s.comments = commentsOf b.js pre := by
  obtain ⟨_, ⟨pre, h⟩, _⟩ :=
    Sys.reachable (readSys_ok b.js (L.scan b.js)) h ⟨_, init_hasRead L b⟩
  exact ⟨pre, h.split, h.comments⟩

/-- C10: a comment once delivered is never taken back. -/
theorem comments_only_appended {L : Lexer} {b : Builder} {s s' : St} (h : Reachable L b s)
    (hc : Calls s s') : s.comments <+: s'.comments := by
  obtain ⟨_, hi, _⟩ :=
    Sys.reachable (readSys_ok b.js (L.scan b.js)) h ⟨_, init_hasRead L b⟩
  exact (Sys.calls (readSys_ok b.js (L.scan b.js)) hc hi).2.2.comments

/-- C10: two comments, one of them between the tokens that a peek looks at. -/
example :
    (Demo.after parse (Demo.state [⟨false, .comment .singleLine, t!"// é"⟩,
      Demo.nl (Demo.k .let), ⟨false, .comment .multiLine, t!"/* b */"⟩, Demo.id t!"x"])).comments =
    [(.singleLine, t!"// é", ⟨1, 6⟩), (.multiLine, t!"/* b */", ⟨11, 18⟩)] := by
  kernel_rfl

end Ressa
