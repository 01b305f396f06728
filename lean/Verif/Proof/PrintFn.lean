import Verif.Proof.PrintOps

/-!
# Printed keys, patterns, functions and classes
-/

namespace Ressa.Print
open Ressa.Gr

variable {C : Cfg} {Γ : Env}

/-! ## What is proved -/

/-- What a property key starts with. -/
def KeyStart (C : Cfg) (t : Token) : Prop :=
  t.isIdent = true ∨ t.isKeyword = true ∨ C.ext.isLiteral t = true ∨ t = .punct .openBracket

def KeyOk (C : Cfg) (Γ : Env) (c : Bool) (x : PropertyKey) : Prop :=
  ∀ i o, Sp C (key Γ c x) i o → (∀ b, Core C (Γ.within b) (.key x) i o) ∧ atBracket i = c ∧
    C.other t!"async" i ∧ KeyStart C (head i) ∧ head i ≠ .punct .asterisk ∧
    (head i = .ident → ∃ t, i = t :: o ∧ t.item.token = .ident ∧ x = .expr (.ident (C.text t)) ∧
      c = false ∧ C.text t ≠ t!"await")

def PatResult (C : Cfg) (Γ : Env) (i o : List Tok) : Pat → Prop
  | .restElement q => ∃ t j, i = t :: j ∧ Is t .spread ∧
      ∀ b, Core C (Γ.within b) (.pattern (restricted q) q) j o
  | .assignment q e => ∀ b, soft2 b (head o) = true →
      Core C (Γ.within b) (.patDefault (restricted q) (.assignment q e)) i o
  | q => ∀ b, Core C (Γ.within b) (.pattern (restricted q) q) i o

def PatOk (C : Cfg) (Γ : Env) (q : Pat) : Prop :=
  ∀ i o, Sp C (pat Γ q) i o → PatResult C Γ i o q

def PatElemsOk (C : Cfg) (Γ : Env) (l : List (Option ArrayPatPart)) : Prop :=
  ∀ i o, Sp C (patElems Γ l) i o → head o = .punct .closeBracket →
    ∀ b, Core C (Γ.within b) (.patElems l) i o

def PatPropsOk (C : Cfg) (Γ : Env) (l : List ObjectPatPart) : Prop :=
  ∀ i o, Sp C (patProps Γ l) i o → head o = .punct .closeBrace →
    ∀ b, Core C (Γ.within b) (.patProps l) i o

def PatPropOk (C : Cfg) (Γ : Env) (x : ObjectPatPart) : Prop :=
  ∀ i o, Sp C (patProp Γ x) i o → head o = .punct .comma ∨ head o = .punct .closeBrace →
    ∀ b, Core C (Γ.within b) (.patProp x) i o

def ParamsOk (C : Cfg) (Γ : Env) (l : List FunctionArg) : Prop :=
  ∀ i o, Sp C (paramSeq Γ l) i o → head o = .punct .closeParen →
    l = [] ∧ i = o ∨ l ≠ [] ∧ Core C Γ (.paramSeq (l.any restrictedArg) l) i o

def BodyOk (C : Cfg) (Γ : Env) (l : List ProgramPart) : Prop :=
  ∀ i o, Sp C (inBraces (parts Γ.body true l)) i o → Core C Γ (.body l) i o

/-- What is proved of a method, by its kind. -/
def MethodResult (C : Cfg) (Γ : Env) (v : PropertyValue) (i o : List Tok) : PropertyKind → Prop
  | .init => (isAsyncValue v && isGeneratorValue v) = false →
      Core C Γ (.method (isAsyncValue v) (isGeneratorValue v) v) i o
  | .get => isPlainValue v = true → paramsOf v = [] → Core C Γ (.getter v) i o
  | .set => isPlainValue v = true → setterArity (paramsOf v) = true → Core C Γ (.setter v) i o
  | _ => True

def MethodOk (C : Cfg) (Γ : Env) (kind : PropertyKind) (v : PropertyValue) : Prop :=
  ∀ i o, Sp C (method Γ kind v) i o → head i = .punct .openParen ∧ C.other t!"async" i ∧
    MethodResult C Γ v i o kind

def isAsync : Function → Bool
  | .mk _ _ _ _ a => a

def hasName : Function → Bool
  | .mk id _ _ _ _ => id.isSome

def FuncOk (C : Cfg) (Γ : Env) (f : Function) : Prop :=
  ∀ b i o, Sp C (func Γ b f) i o →
    (isAsync f = false → head i = .keyword .function ∧ C.other t!"async" i) ∧
    (isAsync f = true → head i = .ident) ∧
    (b = false → Core C Γ (.fnDecl true f) i o ∧
      (hasName f = true → Core C Γ (.fnDecl false f) i o)) ∧
    (b = true → Core C Γ (.fnExpr (.function f)) i o)

def ClassElsOk (C : Cfg) (Γ : Env) (l : List Property) : Prop :=
  ∀ c i o, Sp C (classEls Γ c l) i o → head o = .punct .closeBrace →
    Core C Γ (.classEls c l) i o

def ClsOk (C : Cfg) (Γ : Env) (c : Class) : Prop :=
  ∀ b i o, Sp C (cls Γ b c) i o → head i = .keyword .class ∧ C.other t!"async" i ∧
    Core C Γ (.cls true c) i o ∧ (∀ n s l, c = .mk (some n) s l → Core C Γ (.cls false c) i o)

/-! ## Keys -/

theorem wordToken_cases (w : Txt) : wordToken w = .ident ∨ (∃ b, wordToken w = .boolean b) ∨
    wordToken w = .null ∨ ∃ x, wordToken w = .keyword x := by
  unfold wordToken
  split
  · exact .inr (.inl ⟨_, rfl⟩)
  split
  · exact .inr (.inl ⟨_, rfl⟩)
  split
  · exact .inr (.inr (.inl rfl))
  split
  · exact .inr (.inr (.inr ⟨_, rfl⟩))
  · exact .inl rfl

theorem keyName_ok {n : Txt} {i o : List Tok} (hx : ExtOk C.ext) (h : Sp C (keyName n) i o) :
    ∃ t, i = t :: o ∧ C.text t = n ∧ n ≠ t!"async" ∧ n ≠ t!"await" ∧
      (t.item.token.isIdent || t.item.token.isBool || t.item.token.isNull ||
        t.item.token.isKeyword) = true ∧ KeyStart C t.item.token ∧
      t.item.token ≠ .punct .asterisk ∧ t.item.token ≠ .punct .openBracket := by
  simp only [keyName, sp_only, decide_eq_true_eq, sp_cons, sp_nil, matches_word] at h
  obtain ⟨⟨h1, h2⟩, t, _, rfl, ⟨h4, h5⟩, rfl⟩ := h
  refine ⟨t, rfl, h5, h1, h2, ?_⟩
  rw [h4]
  rcases wordToken_cases n with h | ⟨b, h⟩ | h | ⟨x, h⟩ <;> rw [h] <;>
    simp [Token.isIdent, Token.isBool, Token.isNull, Token.isKeyword, KeyStart, hx.boolean, hx.null]

theorem key_literal {l : Literal} (hx : ExtOk C.ext) : KeyOk C Γ false (.literal l) := by
  intro i o h
  cases l with
  | string s =>
    obtain ⟨t, rfl, h1, rfl, h3⟩ := str_ok h
    refine ⟨fun b => .keyString h1, ?_, h3, .inr (.inr (.inl ?_)), ?_, ?_⟩
    · simp only [atBracket, head, h1]; rfl
    · show C.ext.isLiteral t.item.token = true; rw [h1]; exact hx.string
    · show t.item.token ≠ _; rw [h1]; decide
    · intro h; rw [show head (t :: o) = t.item.token from rfl, h1] at h; cases h
  | number s =>
    obtain ⟨t, rfl, h1, rfl, h3⟩ := num_ok h
    refine ⟨fun b => .keyNumber h1, ?_, h3, .inr (.inr (.inl ?_)), ?_, ?_⟩
    · simp only [atBracket, head, h1]; rfl
    · show C.ext.isLiteral t.item.token = true; rw [h1]; exact hx.numeric
    · show t.item.token ≠ _; rw [h1]; decide
    · intro h; rw [show head (t :: o) = t.item.token from rfl, h1] at h; cases h
  | _ => simp only [key, sp_none] at h

theorem key_none {c x} (h : key Γ c x = none) : KeyOk C Γ c x := by
  intro i o hh
  rw [h] at hh
  exact (sp_none.1 hh).elim

theorem key_ident {n} (hx : ExtOk C.ext) : KeyOk C Γ false (.expr (.ident n)) := by
  intro i o h
  simp only [key] at h
  obtain ⟨t, rfl, rfl, h2, h3, h4, h5, h6, h7⟩ := keyName_ok hx h
  refine ⟨fun b => .keyName h4, ?_, h2, h5, h6, fun h => ⟨t, rfl, h, rfl, rfl, h3⟩⟩
  simpa [atBracket, head, Token.matchesPunct] using h7

/-- A key in brackets. -/
theorem key_bracket {e : Expr} {t t' : Tok} {i o : List Tok} (h1 : Is t .openBracket)
    (h2 : C.text t = t!"[") (h3 : Is t' .closeBracket)
    (he : ∀ b, W C (Γ.within b) 20 (flags e) e i (t' :: o)) :
    (∀ b, Core C (Γ.within b) (.key (computedKey e)) (t :: i) o) ∧ atBracket (t :: i) = true ∧
    C.other t!"async" (t :: i) ∧ KeyStart C (head (t :: i)) ∧ head (t :: i) ≠ .punct .asterisk ∧
    (head (t :: i) = .ident → ∃ t1, t :: i = t1 :: o ∧ t1.item.token = .ident ∧
      computedKey e = .expr (.ident (C.text t1)) ∧ true = false ∧ C.text t1 ≠ t!"await") := by
  refine ⟨fun b => .keyComputed h1 ((he b).assign (by omega) ?_) h3, ?_, ?_, .inr (.inr (.inr h1)),
    ?_, ?_⟩
  · show stop2 b t'.item.token = true; rw [h3]; cases b <;> rfl
  · simp only [atBracket, head, h1]; rfl
  · simp only [Cfg.other, h2]; decide
  · show t.item.token ≠ _; rw [h1]; decide
  · intro h; rw [show head (t :: i) = t.item.token from rfl, h1] at h; cases h

theorem key_computed {e} (hΓ : Γ.allowIn = true) (ih : ExprOk C Γ e) : KeyOk C Γ true (.expr e) := by
  intro i o h
  simp only [key, sp_only, sp_cat, sp_cons, sp_nil, matches_p] at h
  obtain ⟨h0, _, ⟨t, _, rfl, ⟨h1, h2⟩, rfl⟩, j, h3, t', _, rfl, ⟨h4, -⟩, rfl⟩ := h
  have hk : computedKey e = .expr e := by
    cases e with
    | literal l => cases l <;> first | rfl | simp [keyLiteral] at h0
    | _ => rfl
  have := key_bracket (e := e) h1 h2 h4 fun b => sub_closed hΓ ih h3 (by
    show t'.item.token ≠ _; rw [h4]; decide) b
  rwa [hk] at this

theorem key_computed_literal {l} (hΓ : Γ.allowIn = true) : KeyOk C Γ true (.literal l) := by
  intro i o h
  have hl : ∀ i o, Sp C (literal l) i o → head o ≠ .punct .fatArrow → ∀ b,
      W C (Γ.within b) 20 (flags (.literal l)) (.literal l) i o := fun i o h ho b =>
    (Result.w (expr_literal (C := C) hΓ _ _ (by simpa only [expr] using h) ho) rfl).within b
  have hh : keyLiteral (.literal l) = true ∧ Sp C (lit [p .openBracket] +++ literal l +++
      lit [p .closeBracket]) i o := by
    cases l <;> simp only [key, sp_none] at h <;> exact ⟨rfl, h⟩
  obtain ⟨h0, h⟩ := hh
  simp only [sp_cat, sp_cons, sp_nil, matches_p] at h
  obtain ⟨_, ⟨t, _, rfl, ⟨h1, h2⟩, rfl⟩, j, h3, t', _, rfl, ⟨h4, -⟩, rfl⟩ := h
  have hk : computedKey (.literal l) = .literal l := by
    cases l <;> first | rfl | simp [keyLiteral] at h0
  have := key_bracket (e := .literal l) h1 h2 h4 fun b => hl _ _ h3 (by
    show t'.item.token ≠ _; rw [h4]; decide) b
  rwa [hk] at this

/-- The key of a property that is not short-hand. -/
theorem KeyOk.prop {c x} {i o : List Tok} (hΓ : Γ.allowIn = true) (h : KeyOk C Γ c x)
    (hs : Sp C (key Γ c x) i o) (ho : head o ≠ .punct .openBracket) :
    Core C Γ (.propKey x c) i o := by
  obtain ⟨h1, h2, h3, -, -, h5⟩ := h _ _ hs
  have h1 := h1 true
  rw [within_true hΓ] at h1
  by_cases hi : head i = .ident
  · obtain ⟨t, rfl, h6, rfl, rfl, -⟩ := h5 hi
    have : atBracket o = false := by simpa [atBracket, Token.matchesPunct] using ho
    rw [← this]
    exact .propIdent h6 h3
  · rw [← h2]; exact .propKey hi h1

/-! ## Patterns -/

theorem ident_ok {n : Txt} {i o : List Tok} (h : Sp C (name n) i o) (Γ : Env) :
    Core C Γ (.ident n) i o := by
  obtain ⟨t, rfl, h1, rfl, -, h3⟩ := name_ok h
  exact .ident h1 fun _ => h3

theorem PatResult.plain {q : Pat} {i o : List Tok} (h : PatResult C Γ i o q)
    (hq : isPlain q = true) (b : Bool) : Core C (Γ.within b) (.pattern (restricted q) q) i o := by
  cases q <;> first | exact h b | cases hq

theorem PatResult.default {q : Pat} {i o : List Tok} (h : PatResult C Γ i o q)
    (hq : isRest q = false) (b : Bool) (ho : soft2 b (head o) = true) :
    Core C (Γ.within b) (.patDefault (restricted q) q) i o := by
  have hne : head o ≠ .punct .assign := by
    intro hh; rw [hh] at ho; cases b <;> exact absurd ho (by decide)
  cases q with
  | restElement => cases hq
  | assignment => exact h b ho
  | _ => exact .patNoDefault (h b) hne

theorem pat_ident {n} : PatOk C Γ (.identifier n) := by
  intro i o h
  simp only [pat] at h
  exact fun b => .patIdent (ident_ok h _)

theorem pat_array {l} (ih : PatElemsOk C Γ l) : PatOk C Γ (.array l) := by
  intro i o h
  simp only [pat, sp_cat, sp_cons, sp_nil, matches_p] at h
  obtain ⟨_, ⟨t, _, rfl, ⟨h1, -⟩, rfl⟩, j, h3, t', _, rfl, ⟨h4, -⟩, rfl⟩ := h
  exact fun b => .patArray h1 (ih _ _ h3 h4 b) h4

theorem pat_object {l} (ih : PatPropsOk C Γ l) : PatOk C Γ (.object l) := by
  intro i o h
  simp only [pat, sp_cat, sp_cons, sp_nil, matches_p] at h
  obtain ⟨_, ⟨t, _, rfl, ⟨h1, -⟩, rfl⟩, j, h3, t', _, rfl, ⟨h4, -⟩, rfl⟩ := h
  exact fun b => .patObject h1 (ih _ _ h3 h4 b) h4

theorem pat_rest {q} (ih : PatOk C Γ q) : PatOk C Γ (.restElement q) := by
  intro i o h
  simp only [pat, sp_cat, sp_cons, sp_nil, matches_p, sp_only] at h
  obtain ⟨_, ⟨t, _, rfl, ⟨h1, -⟩, rfl⟩, h2, h3⟩ := h
  exact ⟨t, _, rfl, h1, fun b => (ih _ _ h3).plain h2 b⟩

theorem pat_assignment {q e} (hΓ : Γ.allowIn = true) (ihq : PatOk C Γ q)
    (ihe : ExprOk C (Γ.yielding false) e) :
    PatOk C Γ (.assignment q e) := by
  intro i o h
  simp only [pat, sp_cat, sp_cons, sp_nil, matches_p, sp_only] at h
  obtain ⟨_, ⟨h2, h3⟩, _, ⟨t, _, rfl, ⟨h1, -⟩, rfl⟩, h4⟩ := h
  exact fun b hb => .patDefault ((ihq _ _ h3).plain h2 b) h1 (sub_closed_assign (Γ := Γ.yielding false) hΓ ihe h4 b hb)

theorem soft2_any {b : Bool} {t : Token} (h : t = .punct .comma ∨ t = .punct .closeBrace ∨
    t = .punct .closeBracket ∨ t = .punct .closeParen) : soft2 b t = true := by
  rcases h with rfl | rfl | rfl | rfl <;> cases b <;> rfl

theorem patElems_nil : PatElemsOk C Γ [] := by
  intro i o h ho b
  simp only [patElems, sp_nil] at h
  subst h
  exact .patElemsEnd ho

theorem patElems_none {l} (ih : PatElemsOk C Γ l) : PatElemsOk C Γ (none :: l) := by
  intro i o h ho b
  simp only [patElems, sp_cat, sp_cons, sp_nil, matches_p] at h
  obtain ⟨_, ⟨t, _, rfl, ⟨h1, -⟩, rfl⟩, h2⟩ := h
  exact .patElemsHole h1 (ih _ _ h2 ho b)

theorem patElems_expr {e l} : PatElemsOk C Γ (some (.expr e) :: l) := by
  intro i o h
  simp only [patElems, sp_none] at h

theorem patElems_pat {q l} (ihq : PatOk C Γ q) (ih : PatElemsOk C Γ l) :
    PatElemsOk C Γ (some (.pat q) :: l) := by
  intro i o h ho b
  simp only [patElems, sp_cat, sp_only] at h
  obtain ⟨_, ⟨h1, h2⟩, _, h3, h4⟩ := h
  have h1 : isRest q = false := by simpa using h1
  rcases sp_sep h3 with ⟨rfl, rfl⟩ | ⟨-, t, rfl, h5⟩
  · simp only [patElems, sp_nil] at h4
    subst h4
    exact .patElemsLast ((ihq _ _ h2).default h1 b (soft2_any (.inr (.inr (.inl ho))))) ho
  · exact .patElemsMore ((ihq _ _ h2).default h1 b (soft2_any (.inl h5))) h5 (ih _ _ h4 ho b)

theorem patProps_nil : PatPropsOk C Γ [] := by
  intro i o h ho b
  simp only [patProps, sp_nil] at h
  subst h
  exact .patPropsEnd ho

theorem patProps_cons {x l} (ihx : PatPropOk C Γ x) (ih : PatPropsOk C Γ l) :
    PatPropsOk C Γ (x :: l) := by
  intro i o h ho b
  simp only [patProps, sp_cat] at h
  obtain ⟨_, h2, _, h3, h4⟩ := h
  rcases sp_sep h3 with ⟨rfl, rfl⟩ | ⟨-, t, rfl, h5⟩
  · simp only [patProps, sp_nil] at h4
    subst h4
    exact .patPropsLast (ihx _ _ h2 (.inr ho) b) ho
  · exact .patPropsMore (ihx _ _ h2 (.inl h5) b) h5 (ih _ _ h4 ho b)

theorem patProp_none {x} (h : patProp Γ x = none) : PatPropOk C Γ x := by
  intro i o hh
  rw [h] at hh
  exact (sp_none.1 hh).elim

theorem patProp_rest {q} (ih : PatOk C Γ q) : PatPropOk C Γ (.rest q) := by
  intro i o h ho b
  simp only [patProp, sp_only] at h
  obtain ⟨h1, h2⟩ := h
  cases q <;> simp only [isRest, Bool.false_eq_true] at h1
  obtain ⟨t, j, rfl, h3, h4⟩ := ih _ _ h2
  exact .patPropRest h3 (h4 b)

theorem shortKey_ok {x : PropertyKey} {i o : List Tok} (h : Sp C (shortKey x) i o) :
    ∃ n, x = .expr (.ident n) ∧ Sp C (name n) i o := by
  unfold shortKey at h
  split at h
  · exact ⟨_, rfl, h⟩
  · exact (sp_none.1 h).elim

/-- Short-hand properties of patterns; the default if there is one. -/
theorem patProp_short {x v c} (hΓ : Γ.allowIn = true) (ih : ∀ e, v = .expr e → ExprOk C Γ e) :
    PatPropOk C Γ (.assignment (.mk x v .init false c true)) := by
  intro i o h ho b
  simp only [patProp, sp_only, sp_cat] at h
  obtain ⟨h1, j, h2, h3⟩ := h
  have : c = false := by simpa using h1
  subst this
  obtain ⟨n, rfl, h2⟩ := shortKey_ok h2
  cases v with
  | none =>
    simp only [patInit, sp_nil] at h3
    subst h3
    exact .patPropShort (ident_ok h2 _) ho
  | expr e =>
    simp only [patInit, sp_cat, sp_cons, sp_nil, matches_p] at h3
    obtain ⟨_, ⟨t, _, rfl, ⟨h4, -⟩, rfl⟩, h5⟩ := h3
    refine .patPropInit (ident_ok h2 _) h4 (sub_closed_single hΓ (ih e rfl) h5 b (soft2_any ?_))
    rcases ho with ho | ho <;> simp [ho]
  | pat q => simp only [patInit, sp_none] at h3

theorem patProp_key {x v c} (ihx : KeyOk C Γ c x)
    (ih : ∀ q, v = .pat q → PatOk C Γ q) :
    PatPropOk C Γ (.assignment (.mk x v .init false c false)) := by
  intro i o h ho b
  simp only [patProp, sp_cat, sp_cons, sp_nil, matches_p] at h
  obtain ⟨j, h1, _, ⟨t, _, rfl, ⟨h2, -⟩, rfl⟩, h3⟩ := h
  cases v with
  | pat q =>
    simp only [patValue, sp_only] at h3
    obtain ⟨h4, h5⟩ := h3
    have hp := (ih q rfl _ _ h5).default (by simpa using h4) b (soft2_any (by
      rcases ho with ho | ho <;> simp [ho]))
    obtain ⟨k1, k2, -, -, -, k5⟩ := ihx _ _ h1
    by_cases hi : head i = .ident
    · obtain ⟨u, rfl, h6, rfl, rfl, h7⟩ := k5 hi
      exact .patPropName (.ident h6 fun _ => h7) h2 hp
    · rw [← k2]; exact .patPropKey hi (k1 b) h2 hp
  | _ => simp only [patValue, sp_none] at h3

/-! ## Functions -/

theorem params_nil : ParamsOk C Γ [] := by
  intro i o h _
  simp only [paramSeq, sp_nil] at h
  exact .inl ⟨rfl, h⟩

theorem params_expr {e l} : ParamsOk C Γ (.expr e :: l) := by
  intro i o h
  simp only [paramSeq, sp_none] at h

theorem params_pat {q l} (hΓ : Γ.allowIn = true) (ihq : PatOk C Γ q) (ih : ParamsOk C Γ l) :
    ParamsOk C Γ (.pat q :: l) := by
  intro i o h ho
  simp only [paramSeq, sp_cat, sp_only] at h
  obtain ⟨j, ⟨h1, h2⟩, _, h3, h4⟩ := h
  refine .inr ⟨by simp, ?_⟩
  rcases sp_sep h3 with ⟨rfl, rfl⟩ | ⟨hl, t, rfl, h5⟩
  · simp only [paramSeq, sp_nil] at h4
    subst h4
    simp only [List.any_cons, List.any_nil, Bool.or_false, restrictedArg]
    refine .paramLast ?_ ho
    have := ihq _ _ h2
    by_cases hq : isRest q = true
    · cases q <;> simp only [isRest, Bool.false_eq_true] at hq
      obtain ⟨u, k, rfl, h6, h7⟩ := this
      exact .paramRest h6 (within_true hΓ ▸ h7 true) ho
    · have := this.default (by simpa using hq) true (soft2_any (by simp [ho]))
      exact .param (within_true hΓ ▸ this)
  · rcases ih _ _ h4 ho with ⟨h6, -⟩ | ⟨-, h6⟩
    · exact absurd h6 hl
    · have hq : isRest q = false := by simpa [hl] using h1
      have := (ihq _ _ h2).default hq true (soft2_any (.inl h5))
      rw [List.any_cons]
      exact .paramMore (.param (within_true hΓ ▸ this)) h5 h6

theorem inParens_ok {ps} {i o : List Tok} (ih : ParamsOk C Γ ps)
    (h : Sp C (inParens (paramSeq Γ ps)) i o) : head i = .punct .openParen ∧
      C.other t!"async" i ∧ Core C Γ (.params (ps.any restrictedArg) ps) i o := by
  simp only [inParens, sp_cat, sp_cons, sp_nil, matches_p] at h
  obtain ⟨_, ⟨t, _, rfl, ⟨h1, h2⟩, rfl⟩, j, h3, t', _, rfl, ⟨h4, -⟩, rfl⟩ := h
  refine ⟨h1, by simp only [Cfg.other, h2]; decide, ?_⟩
  rcases ih _ _ h3 h4 with ⟨rfl, rfl⟩ | ⟨-, h5⟩
  · exact .paramsNone h1 h4
  · exact .params h1 h5 h4

theorem method_none {kind v} (h : method Γ kind v = none) : MethodOk C Γ kind v := by
  intro i o hh
  rw [h] at hh
  exact (sp_none.1 hh).elim

theorem method_fn {kind ps b g a} (ihp : ParamsOk C (paramEnv Γ kind g a) ps)
    (ihb : BodyOk C (bodyEnv Γ kind a) b) :
    MethodOk C Γ kind (.expr (.function (.mk none ps b g a))) := by
  intro i o h
  simp only [method, sp_only, sp_cat] at h
  obtain ⟨h0, j, h1, h2⟩ := h
  obtain ⟨h3, h4, h5⟩ := inParens_ok ihp h1
  have h6 := ihb _ _ h2
  have h7 : Γ.strict = true → ps.any restrictedArg = true → C.tolerant = true := by
    intro hs hb
    rw [hs, hb] at h0
    cases h0
  refine ⟨h3, h4, ?_⟩
  cases kind with
  | init =>
    intro hag
    cases a with
    | true => cases (show g = false by simpa [isAsyncValue, isGeneratorValue] using hag)
              exact .methodAsync h5 h6 h7
    | false =>
      cases g with
      | true => exact .methodGen h5 h6 h7
      | false => exact .method h5 h6 h7
  | get =>
    intro hg hp
    obtain ⟨hg, ha⟩ := (show g = false ∧ a = false by
      simpa [isPlainValue, isAsyncValue, isGeneratorValue] using hg)
    subst hg ha
    exact .getter h5 (.inl hp) h6 h7
  | set =>
    intro hg hp
    obtain ⟨hg, ha⟩ := (show g = false ∧ a = false by
      simpa [isPlainValue, isAsyncValue, isGeneratorValue] using hg)
    subst hg ha
    refine .setter h5 (.inl ?_) h6 h7
    simp only [paramsOf] at hp
    unfold setterArity at hp
    split at hp
    · rename_i q
      refine ⟨_, rfl, ?_⟩
      cases q <;> simp [isRest, isRestArg] at hp ⊢
    · cases hp
  | _ => trivial

theorem star_ok {g : Bool} {i o : List Tok} (h : Sp C (star g) i o)
    (ho : head o ≠ .punct .asterisk) : Core C Γ (.star g) i o := by
  cases g
  · have : i = o := sp_nil.1 h
    subst this
    exact .starNo ho
  · have h : Sp C (lit [p .asterisk]) i o := h
    simp only [sp_cons, sp_nil, matches_p] at h
    obtain ⟨t, _, rfl, ⟨h1, -⟩, rfl⟩ := h
    exact .starYes h1

theorem fnStart_ok {a : Bool} {i o : List Tok} (h : Sp C (fnStart a) i o) :
    Core C Γ (.fnStart a) i o ∧
      (a = false → head i = .keyword .function ∧ C.other t!"async" i) ∧
      (a = true → head i = .ident) := by
  cases a with
  | false =>
    have h : Sp C (lit [k .function]) i o := h
    simp only [sp_cons, sp_nil, matches_k] at h
    obtain ⟨t, _, rfl, ⟨h1, h2⟩, rfl⟩ := h
    have h3 : C.text t ≠ t!"async" := by rw [h2]; decide
    exact ⟨.fnPlain h1 h3, fun _ => ⟨h1, h3⟩, by simp⟩
  | true =>
    have h : Sp C (lit [async, k .function]) i o := h
    simp only [sp_cons, sp_nil, matches_k] at h
    obtain ⟨t, _, rfl, ⟨h1, h2, -, h3⟩, u, _, rfl, ⟨h4, -⟩, rfl⟩ := h
    obtain ⟨u', _, h5, h6⟩ := h3 rfl
    cases h5
    exact ⟨.fnAsync h1 h2 h4 h6, by simp, fun _ => h1⟩

theorem func_ok {id ps b g a} (hx : ExtOk C.ext) (ihp : ParamsOk C (Γ.fn a g) ps)
    (ihb : BodyOk C (Γ.fn a g) b) : FuncOk C Γ (.mk id ps b g a) := by
  intro e i o h
  simp only [func, sp_only, sp_cat, Bool.and_eq_true] at h
  obtain ⟨⟨⟨h0, h1⟩, h2⟩, r, h3, j, h5, k, h6, m, h7, h8⟩ := h
  obtain ⟨h3, h4, h4'⟩ := fnStart_ok (Γ := Γ) h3
  obtain ⟨k1, -, k2⟩ := inParens_ok ihp h7
  have hb := ihb _ _ h8
  have hj : head j ≠ .punct .asterisk ∧ Core C Γ (.declName true id) j k ∧
      (id.isSome = true → Core C Γ (.declName false id) j k) ∧
      Core C (Γ.fn a g) (.exprName id) j k := by
    cases id with
    | none =>
      have : j = k := sp_nil.1 h6
      subst this
      exact ⟨by rw [k1]; decide, .declNameNone k1, by simp, .exprNameNone k1⟩
    | some n =>
      have h6 : Sp C (name n) j k := h6
      have hn : Γ.strict = true → C.ext.isRestricted .ident n = false := by
        intro hs
        cases hr : C.ext.isRestricted .ident n with
        | false => rfl
        | true => simp [hs, hx.restricted hr] at h1
      refine ⟨?_, .declName (ident_ok h6 _) hn, fun _ => .declName (ident_ok h6 _) hn,
        .exprName (ident_ok h6 _) ?_⟩
      · obtain ⟨u, rfl, h9, -⟩ := name_ok h6
        show u.item.token ≠ _; rw [h9]; decide
      · intro hs hr
        rw [hn hs, hx.ident] at hr
        cases hr
  refine ⟨h4, h4', ?_, ?_⟩
  · rintro rfl
    have h0 : (a && g) = false := by cases a <;> cases g <;> first | rfl | exact absurd h0 (by decide)
    exact ⟨.fnDecl h3 (star_ok h5 hj.1) h0 hj.2.1 k2 hb,
      fun hn => .fnDecl h3 (star_ok h5 hj.1) h0 (hj.2.2.1 hn) k2 hb⟩
  · rintro rfl
    refine .fnExpr h3 (star_ok h5 hj.1) hj.2.2.2 k2 hb ?_
    intro hs hr
    rw [hs, hr] at h2
    cases h2

theorem expr_function {f} (hx : ExtOk C.ext) (hΓ : Γ.allowIn = true) (ih : FuncOk C Γ f) :
    ExprOk C Γ (.function f) := by
  intro i o h _
  simp only [expr] at h
  obtain ⟨h1, h2, -, h3⟩ := ih _ _ _ h
  have h4 := toWithin hΓ (.primFunction (fun _ _ => hx.function) (h3 rfl))
  obtain ⟨id, ps, b, g, a⟩ := f
  cases a with
  | false =>
    obtain ⟨h1, h5⟩ := h1 rfl
    exact ⟨fun _ => h5, by rw [h1]; rfl, .primary h4⟩
  | true =>
    have h2 := h2 rfl
    refine ⟨fun h => absurd h (by simp [level]), by rw [h2]; rfl, .update fun hs => ?_⟩
    refine .updNone (.callNone ?_ (.opPrimary h4 ?_) ?_) ?_ ?_ (.inr ⟨?_, ?_⟩)
    · rw [h2]; decide
    · rw [h2]; decide
    · simp only [stop17, Bool.and_eq_true] at hs
      simpa using hs.1.1
    · rw [h2]; decide
    · rw [h2]; decide
    · intro hh; rw [hh] at hs; exact absurd hs (by decide)
    · intro hh; rw [hh] at hs; exact absurd hs (by decide)

/-! ## Object properties -/

theorem objProp_none {x} (h : objProp Γ x = none) : ObjPropOk C Γ x := by
  intro f i o hh
  rw [h] at hh
  exact (sp_none.1 hh).elim

theorem stop2_prop {t : Token} (h : t = .punct .comma ∨ t = .punct .closeBrace) :
    stop2 true t = true := by
  rcases h with rfl | rfl <;> rfl

theorem objProp_spread {e} (hΓ : Γ.allowIn = true) (ih : ExprOk C Γ e) :
    ObjPropOk C Γ (.spread e) := by
  intro f i o h ho
  simp only [objProp, sp_only] at h
  obtain ⟨h1, h2⟩ := h
  cases e <;> simp only [isSpread, Bool.false_eq_true] at h1
  have hs := stop2_prop ho
  obtain ⟨t, j, n, rfl, h3, h4, h5⟩ := ih _ _ h2 (stop2_arrow hs)
  exact .propSpread h3 (h5.assign h4 (hΓ ▸ hs))

theorem objProp_short {x v c} (hΓ : Γ.allowIn = true) (ih : ∀ e, v = .expr e → ExprOk C Γ e) :
    ObjPropOk C Γ (.property (.mk x v .init false c true)) := by
  intro f i o h ho
  simp only [objProp, sp_only, sp_cat] at h
  obtain ⟨h1, j, h2, h3⟩ := h
  have : c = false := by simpa using h1
  subst this
  obtain ⟨n, rfl, h2⟩ := shortKey_ok h2
  obtain ⟨t, rfl, k1, rfl, k2, -⟩ := name_ok h2
  simp only [propFlags, if_true]
  cases v with
  | none =>
    simp only [shortValue, sp_nil] at h3
    subst h3
    exact .propShort k1 k2 ho
  | expr e =>
    simp only [shortValue, sp_cat, sp_cons, sp_nil, matches_p] at h3
    obtain ⟨_, ⟨t', _, rfl, ⟨h4, -⟩, rfl⟩, h5⟩ := h3
    exact .propShortInit k1 k2 h4 (sub_assign hΓ (ih e rfl) h5 (stop2_prop ho))
  | pat q => simp only [shortValue, sp_none] at h3

theorem objProp_init {x v c} (hΓ : Γ.allowIn = true) (ihx : KeyOk C Γ c x)
    (ih : ∀ e, v = .expr e → ExprOk C Γ e) :
    ObjPropOk C Γ (.property (.mk x v .init false c false)) := by
  intro f i o h ho
  simp only [objProp, sp_cat, sp_cons, sp_nil, matches_p] at h
  obtain ⟨j, h2, _, ⟨t, _, rfl, ⟨h4, -⟩, rfl⟩, h5⟩ := h
  cases v with
  | expr e =>
    simp only [value] at h5
    refine .propInit (ihx.prop hΓ h2 ?_) h4
      (sub_single hΓ (ih e rfl) h5 (stop2_prop ho))
    show t.item.token ≠ _; rw [h4]; decide
  | _ => simp only [value, sp_none] at h5

theorem asyncStar_ok {v : PropertyValue} {i j : List Tok} (h : Sp C (asyncStar v) i j) :
    (isAsyncValue v = true ∧ isGeneratorValue v = false ∧
      ∃ t, i = t :: j ∧ t.item.token = .ident ∧ C.text t = t!"async") ∨
    (isAsyncValue v = false ∧ isGeneratorValue v = true ∧
      ∃ t, i = t :: j ∧ Is t .asterisk ∧ C.text t = t!"*") ∨
    (isAsyncValue v = false ∧ isGeneratorValue v = false ∧ i = j) := by
  unfold asyncStar at h
  split at h
  · rename_i ha
    simp only [sp_only, sp_cons, sp_nil] at h
    obtain ⟨hg, t, _, rfl, ⟨h1, h2, -⟩, rfl⟩ := h
    exact .inl ⟨ha, by simpa using hg, t, rfl, h1, h2⟩
  · rename_i ha
    have ha : isAsyncValue v = false := by simpa using ha
    cases hg : isGeneratorValue v with
    | false => rw [hg] at h; exact .inr (.inr ⟨ha, rfl, sp_nil.1 h⟩)
    | true =>
      rw [hg] at h
      have h : Sp C (lit [p .asterisk]) i j := h
      simp only [sp_cons, sp_nil, matches_p] at h
      obtain ⟨t, _, rfl, ⟨h5, h6⟩, rfl⟩ := h
      exact .inr (.inl ⟨ha, rfl, t, rfl, h5, h6⟩)

theorem objProp_method {x v c} (hΓ : Γ.allowIn = true) (ihx : KeyOk C Γ c x)
    (ih : MethodOk C Γ .init v) : ObjPropOk C Γ (.property (.mk x v .init true c false)) := by
  intro f i o h _
  simp only [objProp, sp_cat] at h
  obtain ⟨j, h1, k, h2, h3⟩ := h
  obtain ⟨m1, -, m3⟩ := ih _ _ h3
  simp only [propFlags, Bool.false_eq_true, if_false, Bool.not_true, Bool.and_false]
  rcases asyncStar_ok h1 with ⟨ha, hg, t, rfl, h5, h6⟩ | ⟨ha, hg, t, rfl, h5, h6⟩ | ⟨ha, hg, rfl⟩ <;>
    simp only [MethodResult, ha, hg, Bool.and_false, Bool.false_and, true_implies] at m3
  · obtain ⟨k1, rfl, -⟩ := ihx _ _ h2
    exact .propAsync h5 h6 (within_true hΓ ▸ k1 true) m3
  · obtain ⟨k1, rfl, -⟩ := ihx _ _ h2
    exact .propGen h5 (by rw [h6]; decide) (by rw [h6]; decide) (within_true hΓ ▸ k1 true) m3
  · exact .propMethod (ihx.prop hΓ h2 (by rw [m1]; decide)) m3

theorem wordToken_get : wordToken t!"get" = .ident := by decide
theorem wordToken_set : wordToken t!"set" = .ident := by decide

theorem objProp_get {x v c} (hΓ : Γ.allowIn = true) (ihx : KeyOk C Γ c x)
    (ih : MethodOk C Γ .get v) : ObjPropOk C Γ (.property (.mk x v .get false c false)) := by
  intro f i o h _
  simp only [objProp, sp_only, sp_cat, sp_cons, sp_nil, matches_word, wordToken_get,
    Bool.and_eq_true] at h
  obtain ⟨⟨g1, g2⟩, _, ⟨t, _, rfl, ⟨h1, h2⟩, rfl⟩, k, h3, h4⟩ := h
  obtain ⟨-, -, m3⟩ := ih _ _ h4
  obtain ⟨k1, rfl, -⟩ := ihx _ _ h3
  exact .propGet h1 h2 (within_true hΓ ▸ k1 true) (m3 g1 (by simpa using g2))

theorem objProp_set {x v c} (hΓ : Γ.allowIn = true) (ihx : KeyOk C Γ c x)
    (ih : MethodOk C Γ .set v) : ObjPropOk C Γ (.property (.mk x v .set false c false)) := by
  intro f i o h _
  simp only [objProp, sp_only, sp_cat, sp_cons, sp_nil, matches_word, wordToken_set,
    Bool.and_eq_true] at h
  obtain ⟨⟨g1, g2⟩, _, ⟨t, _, rfl, ⟨h1, h2⟩, rfl⟩, k, h3, h4⟩ := h
  obtain ⟨-, -, m3⟩ := ih _ _ h4
  obtain ⟨k1, rfl, -⟩ := ihx _ _ h3
  exact .propSet h1 h2 (within_true hΓ ▸ k1 true) (m3 g1 g2)

/-! ## Classes -/

theorem classEls_none {l} (h : ∀ c, classEls Γ c l = none) : ClassElsOk C Γ l := by
  intro c i o hh
  rw [h] at hh
  exact (sp_none.1 hh).elim

theorem classEls_nil : ClassElsOk C Γ [] := by
  intro c i o h ho
  simp only [classEls, sp_nil] at h
  subst h
  exact .classElsEnd ho

/-- A method or a constructor of a class. -/
theorem el_method {x v c} {i j o : List Tok} (hx : ExtOk C.ext) (hΓ : Γ.allowIn = true)
    (ihx : KeyOk C Γ c x) (h1 : Sp C (key Γ c x) i j) (h2 : C.other t!"async" j)
    (h3 : Core C Γ (.method false false v) j o) :
    C.other t!"async" i ∧ Core C Γ (.elBody false ⟨some .init, true, some x, some v, c⟩) i o := by
  obtain ⟨k1, rfl, k3, -, k5, -⟩ := ihx _ _ h1
  exact ⟨k3, .elMethod (within_true hΓ ▸ k1 true) k5 (fun _ => .inr hx.paren)
    (fun _ _ => hx.paren) h2 h3⟩

theorem classEls_ctor {x v l} (hx : ExtOk C.ext) (hΓ : Γ.allowIn = true)
    (ihx : KeyOk C Γ false x) (ihv : MethodOk C Γ .init v) (ih : ClassElsOk C Γ l) :
    ClassElsOk C Γ (.mk x v .ctor true false false :: l) := by
  intro c i o h ho
  simp only [classEls, sp_only, sp_cat, Bool.and_eq_true] at h
  obtain ⟨_, ⟨⟨⟨g1, g2⟩, g3⟩, j, h0, k, h1, h2⟩, h3⟩ := h
  obtain ⟨-, m2, m3⟩ := ihv _ _ h2
  have g3 : isGeneratorValue v = false := by simpa using g3
  have g1 : c = false := by simpa using g1
  rcases asyncStar_ok h0 with ⟨ha, hg, t, rfl, h5, h6⟩ | ⟨-, hg, -⟩ | ⟨ha, hg, rfl⟩
  · simp only [MethodResult, ha, hg, Bool.and_false, true_implies] at m3
    obtain ⟨k1, k2, -⟩ := ihx _ _ h1
    refine .classElsMore (.classElAsync h5 h6 (within_true hΓ ▸ k1 true) ?_ m2 m3 ?_) (ih _ _ _ h3 ho)
    · have hk : ∀ w, w ≠ t!"constructor" → isKey x w = false := by
        intro w hw
        unfold isKey at g2 ⊢
        split at g2
        all_goals first
          | cases g2; done
          | simp only [beq_iff_eq] at g2; subst g2; simpa using fun h => hw h.symm
      rw [hk _ (by decide), hk _ (by decide), hk _ (by decide)]; rfl
    · rw [k2]
      exact .ctor (.inl rfl) rfl rfl rfl rfl g3 rfl g2 g1
  · rw [g3] at hg; cases hg
  · simp only [MethodResult, ha, hg, Bool.and_false, true_implies] at m3
    obtain ⟨e1, e2⟩ := el_method hx hΓ ihx h1 m2 m3
    exact .classElsMore (.classEl e1 e2 (.ctor (.inl rfl) rfl rfl rfl rfl g3 rfl g2 g1))
      (ih _ _ _ h3 ho)

theorem classEls_method {x v c l} (hx : ExtOk C.ext) (hΓ : Γ.allowIn = true)
    (ihx : KeyOk C Γ c x) (ihv : MethodOk C Γ .init v) (ih : ClassElsOk C Γ l) :
    ClassElsOk C Γ (.mk x v .method true c false :: l) := by
  intro ct i o h ho
  simp only [classEls, sp_only, sp_cat, Bool.and_eq_true, Bool.or_eq_true] at h
  obtain ⟨_, ⟨⟨g1, g2⟩, k, h0, j, h1, h2⟩, h3⟩ := h
  obtain ⟨-, m2, m3⟩ := ihv _ _ h2
  have g1 : c = true ∨ false = true ∧ isKey x t!"prototype" = false ∨
      false = false ∧ isKey x t!"constructor" = false := by
    rcases g1 with g1 | g1
    · exact .inl g1
    · exact .inr (.inr ⟨rfl, by simpa using g1⟩)
  rcases asyncStar_ok h0 with ⟨ha, hg, t, rfl, h5, h6⟩ | ⟨ha, hg, t, rfl, h5, h6⟩ | ⟨ha, hg, rfl⟩ <;>
    simp only [MethodResult, ha, hg, Bool.and_false, Bool.false_and, true_implies] at m3
  · obtain ⟨k1, rfl, -⟩ := ihx _ _ h1
    have g2 : asyncKey x = true := by simpa [ha] using g2
    exact .classElsMore (.classElAsync h5 h6 (within_true hΓ ▸ k1 true)
      (by simpa [asyncKey] using g2) m2 m3 (Finish.other (kind := .init) rfl rfl rfl g1))
      (ih _ _ _ h3 ho)
  · obtain ⟨k1, rfl, -, k4, -⟩ := ihx _ _ h1
    refine .classElsMore (.classEl ?_ (.elGen h5 k4 (within_true hΓ ▸ k1 true) m3)
      (Finish.other (kind := .init) rfl rfl rfl g1)) (ih _ _ _ h3 ho)
    simp only [Cfg.other, h6]; decide
  · obtain ⟨e1, e2⟩ := el_method hx hΓ ihx h1 m2 m3
    exact .classElsMore (.classEl e1 e2 (Finish.other (kind := .init) rfl rfl rfl g1))
      (ih _ _ _ h3 ho)

theorem classEls_get {x v c l} (hΓ : Γ.allowIn = true)
    (ihx : KeyOk C Γ c x) (ihv : MethodOk C Γ .get v) (ih : ClassElsOk C Γ l) :
    ClassElsOk C Γ (.mk x v .get false c false :: l) := by
  intro ct i o h ho
  simp only [classEls, sp_only, sp_cat, sp_cons, sp_nil, matches_word, wordToken_get,
    Bool.and_eq_true, Bool.or_eq_true] at h
  obtain ⟨_, ⟨⟨⟨g1, g2⟩, g3⟩, _, ⟨t, _, rfl, ⟨h5, h6⟩, rfl⟩, j, h1, h2⟩, h3⟩ := h
  obtain ⟨-, -, m3⟩ := ihv _ _ h2
  have g1 : c = true ∨ false = true ∧ isKey x t!"prototype" = false ∨
      false = false ∧ isKey x t!"constructor" = false := by
    rcases g1 with g1 | g1
    · exact .inl g1
    · exact .inr (.inr ⟨rfl, by simpa using g1⟩)
  obtain ⟨k1, rfl, k3, k4, -⟩ := ihx _ _ h1
  refine .classElsMore (.classEl ?_ (.elGet h5 h6 k4 k3 (within_true hΓ ▸ k1 true)
      (m3 g2 (by simpa using g3)))
    (Finish.other (kind := .get) rfl rfl rfl g1)) (ih _ _ _ h3 ho)
  simp only [Cfg.other, h6]; decide

theorem classEls_set {x v c l} (hΓ : Γ.allowIn = true)
    (ihx : KeyOk C Γ c x) (ihv : MethodOk C Γ .set v) (ih : ClassElsOk C Γ l) :
    ClassElsOk C Γ (.mk x v .set false c false :: l) := by
  intro ct i o h ho
  simp only [classEls, sp_only, sp_cat, sp_cons, sp_nil, matches_word, wordToken_set,
    Bool.and_eq_true, Bool.or_eq_true] at h
  obtain ⟨_, ⟨⟨⟨g1, g2⟩, g3⟩, _, ⟨t, _, rfl, ⟨h5, h6⟩, rfl⟩, j, h1, h2⟩, h3⟩ := h
  obtain ⟨-, -, m3⟩ := ihv _ _ h2
  have g1 : c = true ∨ false = true ∧ isKey x t!"prototype" = false ∨
      false = false ∧ isKey x t!"constructor" = false := by
    rcases g1 with g1 | g1
    · exact .inl g1
    · exact .inr (.inr ⟨rfl, by simpa using g1⟩)
  obtain ⟨k1, rfl, k3, k4, -⟩ := ihx _ _ h1
  refine .classElsMore (.classEl ?_ (.elSet h5 h6 k4 k3 (within_true hΓ ▸ k1 true)
      (m3 g2 g3))
    (Finish.other (kind := .set) rfl rfl rfl g1)) (ih _ _ _ h3 ho)
  simp only [Cfg.other, h6]; decide

theorem cls_none {id b} (ih : ClassElsOk C Γ.strictly b) : ClsOk C Γ (.mk id none b) := by
  intro opt i o h
  simp only [cls, sp_only, sp_cat, sp_cons, sp_nil, matches_k, matches_p] at h
  obtain ⟨-, _, ⟨t, _, rfl, ⟨h1, h2⟩, rfl⟩, j, h3, _, ⟨t', _, rfl, ⟨h4, h4'⟩, rfl⟩, k, h5, t'', _, rfl,
    ⟨h6, -⟩, rfl⟩ := h
  refine ⟨h1, by simp only [Cfg.other, h2]; decide, ?_⟩
  have hb := Core.classBody h4 (ih _ _ _ h5 h6) h6
  have hh : ∀ k, Core C Γ.strictly (.heritage none) (t' :: k) (t' :: k) := fun k =>
    .heritageNone (by simp only [Cfg.other, h4']; decide)
  cases id with
  | none =>
    have := sp_nil.1 h3
    subst this
    refine ⟨.cls h1 (by simp only [Cfg.other, h4']; decide) (.classNameNone ?_) (hh _) hb, ?_⟩
    · show t'.item.token ≠ _; rw [h4]; decide
    · intro n s l hc; injection hc with hc; cases hc
  | some n =>
    have h3 : Sp C (name n) _ _ := h3
    have hc : ∀ b, Core C Γ (.cls b (.mk (some n) none _)) _ _ := fun b => by
      refine .cls h1 ?_ (.className (ident_ok h3 _)) (hh _) hb
      obtain ⟨u, rfl, -, h9, -⟩ := name_ok h3
      simp only [Cfg.other, h9]
      rintro rfl
      simp only [name, sp_only, decide_eq_true_eq] at h3
      exact absurd h3.1.1 (by decide)
    exact ⟨hc _, fun _ _ _ _ => hc _⟩

theorem cls_some {n e b} (hΓ : Γ.allowIn = true) (ihe : ExprOk C Γ.strictly e)
    (ih : ClassElsOk C Γ.strictly b) : ClsOk C Γ (.mk (some n) (some e) b) := by
  intro opt i o h
  simp only [cls, sp_cat, sp_cons, sp_nil, matches_k, matches_p] at h
  obtain ⟨_, ⟨t, _, rfl, ⟨h1, h2⟩, rfl⟩, j, h3, _, ⟨u, _, rfl, ⟨-, u2⟩, rfl⟩, m, he, _,
    ⟨t', _, rfl, ⟨h4, h4'⟩, rfl⟩, k, h5, t'', _, rfl, ⟨h6, -⟩, rfl⟩ := h
  refine ⟨h1, by simp only [Cfg.other, h2]; decide, ?_⟩
  have hb := Core.classBody h4 (ih _ _ _ h5 h6) h6
  have hΓ' : Γ.strictly.allowIn = true := hΓ
  obtain ⟨-, q, e1, -, e2⟩ := sub_ok hΓ' ihe (by omega) he (by
    show t'.item.token ≠ _; rw [h4]; decide)
  have hm := e2.member e1 (.memStop (by show memberMore t'.item.token = false; rw [h4]; rfl))
  rw [within_true hΓ'] at hm
  have hc : ∀ b, Core C Γ (.cls b (.mk (some n) (some e) _)) _ _ := fun b => by
    refine .cls h1 ?_ (.className (ident_ok h3 _)) (.heritage u2 hm) hb
    obtain ⟨u, rfl, -, h9, -⟩ := name_ok h3
    simp only [Cfg.other, h9]
    rintro rfl
    simp only [name, sp_only, decide_eq_true_eq] at h3
    exact absurd h3.1.1 (by decide)
  exact ⟨hc _, fun _ _ _ _ => hc _⟩

theorem cls_bad {e b} : ClsOk C Γ (.mk none (some e) b) := by
  intro opt i o h
  simp only [cls, sp_none] at h

theorem expr_class {c} (hx : ExtOk C.ext) (hΓ : Γ.allowIn = true) (ih : ClsOk C Γ c) :
    ExprOk C Γ (.class c) := by
  intro i o h _
  simp only [expr] at h
  obtain ⟨h1, h2, h3, -⟩ := ih _ _ _ h
  exact ⟨fun _ => h2, by rw [h1]; rfl, .primary (toWithin hΓ (.primClass (fun _ => hx.class) h3))⟩

end Ressa.Print
