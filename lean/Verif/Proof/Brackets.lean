import Verif.Spec.Brackets
import Verif.Proof.SoundTop

/-!
# Derivable texts have balanced brackets
-/

namespace Ressa.Gr

/-- The item is no bracket, or it is not spelled as a word. -/
def BracketOk (C : Cfg) (t : Tok) : Prop :=
  t.item.token.isBracket = true → C.text t ≠ t!"async" ∧ C.text t ≠ t!"extends" ∧ C.text t ≠ t!"of"

/-- No bracket stands for a name or word. -/
def Clean (C : Cfg) : List Tok → Prop
  | [] => True
  | t :: r => BracketOk C t ∧ (∀ t' r', r = t' :: r' → PlainPair t.item.token t'.item.token) ∧ Clean C r

theorem openAfter_open {t b i st} (ht : t.item.token.opens = some b) :
    openAfter st (t :: i) = openAfter (b :: st) i := by rw [openAfter, ht]

theorem openAfter_close {t b i st} (ho : t.item.token.opens = none)
    (ht : t.item.token.closes = some b) : openAfter (b :: st) (t :: i) = openAfter st i := by
  rw [openAfter, ho, ht]; simp

theorem openAfter_skip {t i st} (ht : t.item.token.isBracket = false) :
    openAfter st (t :: i) = openAfter st i := by
  simp only [Token.isBracket, Bool.or_eq_false_iff, Option.isSome_eq_false_iff,
    Option.isNone_iff_eq_none] at ht
  rw [openAfter, ht.1, ht.2]

theorem openAfter_append (st u v) :
    openAfter st (u ++ v) = (openAfter st u).bind fun st => openAfter st v := by
  induction u generalizing st with
  | nil => rfl
  | cons t u ih =>
    simp only [List.cons_append, openAfter]
    split
    · exact ih _
    · exact ih _
    · split
      · rfl
      · split
        · exact ih _
        · rfl

theorem Clean.suffix {C u o} (h : Clean C (u ++ o)) : Clean C o := by
  induction u with
  | nil => exact h
  | cons t u ih => exact ih h.2.2

/-- The items between `i` and `o` close the brackets `s` and leave none open. -/
def Shut (C : Cfg) (s : List Bracket) (i o : List Tok) : Prop :=
  ∃ u, i = u ++ o ∧ (Clean C i → ∀ st, openAfter (s ++ st) u = some st)

namespace Shut
variable {C : Cfg} {s : List Bracket} {b : Bracket} {t : Tok} {tok : Token} {i j o : List Tok}

theorem refl : Shut C [] o o := ⟨[], rfl, fun _ _ => rfl⟩

theorem ih (h : Shut C [] i j) (h' : Shut C s j o) : Shut C s i o := by
  obtain ⟨u, rfl, h⟩ := h
  obtain ⟨v, rfl, h'⟩ := h'
  refine ⟨u ++ v, by simp, fun hc st => ?_⟩
  have h1 := h hc (s ++ st)
  rw [openAfter_append]
  simp only [List.nil_append] at h1
  rw [h1]
  exact h' hc.suffix st

theorem ihc (h : Shut C [b] i j) (h' : Shut C s j o) : Shut C (b :: s) i o := by
  obtain ⟨u, rfl, h⟩ := h
  obtain ⟨v, rfl, h'⟩ := h'
  refine ⟨u ++ v, by simp, fun hc st => ?_⟩
  have h1 := h hc (s ++ st)
  rw [openAfter_append]
  simp only [List.cons_append, List.nil_append] at h1 ⊢
  rw [h1]
  exact h' hc.suffix st

theorem skip' (hb : BracketOk C t → t.item.token.isBracket = false) (h : Shut C s i o) :
    Shut C s (t :: i) o := by
  obtain ⟨u, rfl, h⟩ := h
  exact ⟨t :: u, rfl, fun hc st => (openAfter_skip (hb hc.1)).trans (h hc.2.2 st)⟩

theorem skip (ht : t.item.token = tok) (hb : tok.isBracket = false) (h : Shut C s i o) :
    Shut C s (t :: i) o := skip' (fun _ => ht ▸ hb) h

theorem open' (ht : t.item.token = tok) (hb : tok.opens = some b) (h : Shut C (b :: s) i o) :
    Shut C s (t :: i) o := by
  obtain ⟨u, rfl, h⟩ := h
  exact ⟨t :: u, rfl, fun hc st => (openAfter_open (ht ▸ hb)).trans (h hc.2.2 st)⟩

theorem close (ht : t.item.token = tok) (ho : tok.opens = none) (hb : tok.closes = some b)
    (h : Shut C s i o) : Shut C (b :: s) (t :: i) o := by
  obtain ⟨u, rfl, h⟩ := h
  exact ⟨t :: u, rfl, fun hc st => (openAfter_close (ht ▸ ho) (ht ▸ hb)).trans (h hc.2.2 st)⟩

/-- No such phrase. -/
theorem none {u : List Tok} (hi : i = u ++ o) (h : ¬ Clean C i) : Shut C s i o :=
  ⟨u, hi, fun hc => (h hc).elim⟩

theorem word {w : Txt} (ht : C.text t = w) (hw : w = t!"async" ∨ w = t!"extends" ∨ w = t!"of")
    (h : Shut C s i o) : Shut C s (t :: i) o := by
  refine skip' (fun hb => ?_) h
  cases hx : t.item.token.isBracket with
  | false => rfl
  | true =>
    obtain ⟨h1, h2, h3⟩ := hb hx
    rcases hw with rfl | rfl | rfl
    · exact absurd ht h1
    · exact absurd ht h2
    · exact absurd ht h3

/-- A dot and a name. -/
theorem dot (ht : t.item.token = .punct .period) {t'} (h : Shut C s i o) :
    Shut C s (t :: t' :: i) o := by
  obtain ⟨u, rfl, h⟩ := h
  exact ⟨t :: t' :: u, rfl, fun hc st => (openAfter_skip (by rw [ht]; rfl)).trans
    ((openAfter_skip ((hc.2.1 _ _ rfl).1 ht)).trans (h hc.2.2.2.2 st))⟩

end Shut

/-- What each kind of phrase does to the brackets. -/
def Ev (C : Cfg) (i o : List Tok) : NT → Prop
  | .name _ | .importName _ => ∃ t, i = t :: o
  | .loopBody _ | .forCont _ _ | .forHead _ _ => Shut C [.paren] i o
  | .importSpec _ | .importSeq _ | .namedImports _ | .nsImport _ | .exportSpec _
  | .exportSeq _ _ => True
  | .imports _ => head i = .punct .openBrace ∨ head i = .punct .asterisk ∨ atWord i = true
  | .ident _ _ | .fnName _ | .key _ | .semi | .sep | .asyncOpt _ | .starOpt _ | .pattern _ _ _
  | .patDefault _ _ | .rest _ _ | .patElems _ | .patArray _ | .patProp _ | .patProps _
  | .directive _ | .prologue _ | .items _ | .body _ | .param _ _ | .paramSeq _ _ | .params _ _
  | .declName _ _ | .fnDecl _ _ | .exprName _ | .fnExpr _ | .method _ _ _ | .getter _ | .setter _
  | .elHead _ _ | .elBody _ _ | .elMethod _ _ _ | .classEl _ _ _ | .classEls _ _ | .classBody _
  | .heritage _ | .className _ _ | .cls _ _ | .tplElem _ | .tplSeq _ _ | .tpl _ _ | .spread _
  | .arg _ | .argSeq _ | .args _ | .propHead _ _ _ | .objProp _ | .objProps _ | .object _
  | .elems _ | .array _ | .groupSeq _ | .group _ | .primary _ | .newExpr _ | .operand _
  | .member _ | .call _ | .update _ | .unary _ | .expo _ | .bin _ _ | .cond _ | .arrowHead _
  | .assign _ | .exprSeq _ | .expression _ | .block _ | .init _ | .varDecl _ _ _ | .varDecls _ _ _
  | .lexDecl _ _ _ | .lexDecls _ _ _ | .lexical _ _ | .optExpr _ _ | .forSeq _ | .catchParam _
  | .catchClause _ | .handler _ | .finalizer _ | .caseTest _ | .switchCase _ | .cases _ _
  | .optLabel _ _ | .labelBody _ | .exprStmt _ | .stmt _ | .source _ | .importDecl _
  | .exportDecl _ | .listItem _ => Shut C [] i o

theorem not_bracket_of_unary {t op} (h : unaryOperator t = some op) : t.isBracket = false := by
  unfold unaryOperator at h; split at h <;> first | rfl | cases h

theorem not_bracket_of_op {t op} (h : opOf t = some op) : t.isBracket = false := by
  cases t with
  | punct p => cases p <;> first | rfl | simp [opOf, logicalOperator, binaryOperator] at h
  | _ => rfl

theorem not_bracket_of_assign {t : Tok} {p op} (h : assignmentOperator p = some op) (ht : Is t p) :
    t.item.token.isBracket = false := by
  rw [ht]
  cases p <;> first | rfl | simp [assignmentOperator] at h

theorem ident_one {C Γ v n i o} (h : G C Γ (.ident v n) i o) : ∃ t, i = t :: o := by
  cases h <;> exact ⟨_, rfl⟩

/-- Reads the items from left to right. -/
macro "shut" : tactic => `(tactic| repeat (first
  | with_reducible exact Shut.refl
  | refine Shut.dot (by with_reducible assumption) ?_
  | refine Shut.skip (by with_reducible assumption) rfl ?_
  | refine Shut.open' (by with_reducible assumption) rfl ?_
  | refine Shut.close (by with_reducible assumption) rfl rfl ?_
  | refine Shut.ih (by with_reducible assumption) ?_
  | refine Shut.ihc (by with_reducible assumption) ?_
  | (refine Shut.word (by with_reducible assumption) (by simp) ?_; done)))

theorem suf_refl {o : List Tok} : ∃ u, o = u ++ o := ⟨[], rfl⟩
theorem suf_cons {t : Tok} {i o : List Tok} : (∃ u, i = u ++ o) → ∃ u, t :: i = u ++ o
  | ⟨u, h⟩ => ⟨t :: u, by rw [h]; rfl⟩
theorem suf_trans {i j o : List Tok} : (∃ u, i = u ++ j) → (∃ u, j = u ++ o) → ∃ u, i = u ++ o
  | ⟨u, h⟩, ⟨v, h'⟩ => ⟨u ++ v, by rw [h, h', List.append_assoc]⟩

set_option maxHeartbeats 4000000 in
/-- A phrase is a prefix of the items. -/
theorem suffix_of_G {C Γ nt i o} (h : G C Γ nt i o) : ∃ u, i = u ++ o := by
  induction h
  case stDoWhile h ih ih' =>
    rcases h with ⟨rfl, -⟩ | ⟨_, h, rfl⟩
    · exact suf_cons (suf_trans ih (suf_cons (suf_cons (suf_trans ih' (suf_cons suf_refl)))))
    · exact suf_cons (suf_trans ih (suf_cons (suf_cons (suf_trans ih' (suf_cons (suf_cons suf_refl))))))
  all_goals repeat (first
    | with_reducible exact suf_refl
    | refine suf_cons ?_
    | refine suf_trans (by with_reducible assumption) ?_)

set_option maxHeartbeats 4000000 in
theorem even_of_G {C Γ nt i o} (hC : C.tolerant = false) (h : G C Γ nt i o) : Ev C i o nt := by
  induction h
  all_goals simp only [Ev] at *
  all_goals try with_reducible assumption
  all_goals try exact True.intro
  all_goals try (shut; done)
  all_goals try (obtain ⟨_, rfl⟩ := ‹∃ t, _ = _›; shut; done)
  case name => exact ⟨_, rfl⟩
  case keyName t _ h =>
    refine Shut.skip' (fun _ => ?_) .refl
    cases hx : t.item.token <;> simp_all [Token.isBracket, Token.opens, Token.closes, Token.isIdent,
      Token.isBool, Token.isNull, Token.isKeyword]
  case asyncYes h => exact .word h (.inl rfl) .refl
  case heritage h _ ih => exact .word h (.inr (.inl rfl)) ih
  case tplMid h _ => rcases h with h | h <;> shut
  case tplEnd h _ => rcases h with h | h <;> shut
  case updPrefix h _ _ _ _ => rcases h with ⟨h, -⟩ | ⟨h, -⟩ <;> shut
  case updPostfix h _ _ _ => rcases h with ⟨h, -⟩ | ⟨h, -⟩ <;> shut
  case unaryOp h _ _ _ => exact .skip' (fun _ => not_bracket_of_unary h) (by assumption)
  case bin h _ _ _ ih ih' => exact ih.ih (.skip' (fun _ => not_bracket_of_op h) ih')
  case assignOp h _ ih ih' => exact ih.ih (.skip' (fun _ => not_bracket_of_assign h ‹_›) ih')
  case forVarOf h _ _ ih ih' ih'' => exact .skip ‹_› rfl (ih.ih (.word h (.inr (.inr rfl)) (ih'.ih ih'')))
  case forExprOf h _ _ ih ih' ih'' => exact ih.ih (.word h (.inr (.inr rfl)) (ih'.ih ih''))
  case forKindIn h _ _ _ _ _ _ => rcases h with ⟨h, -⟩ | ⟨h, -⟩ <;> shut
  case forLexIn h _ _ _ _ _ _ _ _ => rcases h with ⟨h, -⟩ | ⟨h, -⟩ <;> shut
  case forLexOf h _ _ h' _ _ ih ih' ih'' =>
    rcases h with ⟨h, -⟩ | ⟨h, -⟩ <;>
      exact .skip h rfl (ih.ih (.word h' (.inr (.inr rfl)) (ih'.ih ih'')))
  case forLex h _ _ _ _ => rcases h with ⟨h, -⟩ | ⟨h, -⟩ <;> shut
  case stDoWhile h _ _ => rcases h with ⟨rfl, -⟩ | ⟨_, h, rfl⟩ <;> shut
  case stIfOpen h _ => simp [hC] at h
  case stWhileOpen h _ => simp [hC] at h
  case stWithOpen h _ => simp [hC] at h
  case importIdent => exact ident_one ‹_›
  case importsNamed h _ => cases h; exact .inl ‹_›
  case importsNs h _ => cases h; exact .inr (.inl ‹_›)
  case importsDefault h _ _ _ => exact .inr (.inr h)
  case importsDefaultNs h _ _ _ _ _ _ => exact .inr (.inr h)
  case importsDefaultNamed h _ _ _ _ _ _ => exact .inr (.inr h)
  case importFrom t _ _ _ i _ _ _ hk hi _ hs hm hw ih ih' =>
    obtain ⟨u, rfl, -⟩ := ih
    obtain ⟨v, rfl, -⟩ := ih'
    obtain ⟨w, rfl⟩ := suffix_of_G hi
    refine .none (u := t :: (w ++ _ :: (u ++ v))) (by simp; rfl) fun hc => ?_
    generalize hr : w ++ _ = r at hc hw
    cases r with
    | nil => simp at hr
    | cons t' r =>
      rcases ((hc.2.1 t' r rfl).2.1 hk) with h | h <;>
        simp [head, atWord, h, Token.isIdent, Token.isKeyword, Token.isBool, Token.isNull] at hw
  case exportAll t t' t'' _ _ _ _ hk h _ _ ih ih' =>
    obtain ⟨u, rfl, -⟩ := ih
    obtain ⟨v, rfl, -⟩ := ih'
    exact .none (u := t :: t' :: t'' :: (u ++ v)) (by simp) fun hc =>
      ((hc.2.1 _ _ rfl).2.2 hk).2 h
  case exportNamed t t' t'' _ _ _ _ hk h hx _ _ _ ih =>
    obtain ⟨u, rfl⟩ := suffix_of_G hx
    obtain ⟨v, rfl, -⟩ := ih
    exact .none (u := t :: t' :: (u ++ t'' :: v)) (by simp) fun hc =>
      ((hc.2.1 _ _ rfl).2.2 hk).1 h
  case exportFrom t t' t'' t3 _ _ _ _ _ _ _ hk h hx _ _ _ _ _ ih ih' =>
    obtain ⟨u, rfl⟩ := suffix_of_G hx
    obtain ⟨v, rfl, -⟩ := ih
    obtain ⟨w, rfl, -⟩ := ih'
    exact .none (u := t :: t' :: (u ++ t'' :: t3 :: (v ++ w))) (by simp) fun hc =>
      ((hc.2.1 _ _ rfl).2.2 hk).1 h

/-- The parts of a program. -/
theorem even_of_parts {C Γ b ps i o} (hC : C.tolerant = false) (h : Parts C Γ b ps i o) :
    Shut C [] i o := by
  induction h with
  | nil => exact .refl
  | dir _ h _ ih => exact (even_of_G hC h).ih ih
  | item _ _ h _ ih => exact (even_of_G hC h).ih ih

theorem clean_of_plain {L : Lexer} {b : Builder} (h : PlainText b.js (L.scan b.js)) :
    Clean (cfgOf L b) (visible L b) := by
  obtain ⟨h1, h2⟩ := h
  have h1' : ∀ t ∈ visible L b, BracketOk (cfgOf L b) t := by
    intro t ht hb
    obtain ⟨c, hc⟩ := h1 t ((List.mem_filter.1 ht).1) hb
    have : (cfgOf L b).text t = [c] := by simp [Cfg.text, Cfg.textOf, cfgOf, hc]
    simp [this]
  revert h1'
  change ∀ pre t t' post, visible L b = pre ++ t :: t' :: post → _ at h2
  generalize visible L b = l at h2
  intro h1'
  induction l with
  | nil => trivial
  | cons t l ih =>
    refine ⟨h1' t (by simp), ?_, ih (fun pre a a' post h => h2 (t :: pre) a a' post (by simp [h]))
      fun t ht => h1' t (by simp [ht])⟩
    rintro t' r' rfl
    exact h2 [] _ _ _ rfl

/-- Comments are no brackets. -/
theorem openAfter_filter (st l) :
    openAfter st (l.filter fun t => !t.item.token.isComment) = openAfter st l := by
  induction l generalizing st with
  | nil => rfl
  | cons t l ih =>
    cases hc : t.item.token.isComment with
    | true =>
      have : t.item.token.isBracket = false := by
        cases hx : t.item.token <;> simp_all [Token.isComment, Token.isBracket, Token.opens, Token.closes]
      simp [hc, ih, openAfter_skip this]
    | false =>
      simp only [hc, List.filter_cons, Bool.not_false, if_true]
      simp only [openAfter, ih]

end Ressa.Gr
