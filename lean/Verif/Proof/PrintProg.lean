import Verif.Proof.PrintStmt

/-!
# Printed declarations, modules and program parts
-/

namespace Ressa.Print
open Ressa.Gr

variable {C : Cfg} {Γ : Env}

/-! ## What is proved -/

/-- What a declaration reads as. -/
def DeclResult (C : Cfg) (Γ : Env) (i o : List Tok) : Decl → Prop
  | .variable .var l => ∃ t j k, i = t :: j ∧ Kw t .var ∧
      Core C Γ (.varDs true false l) j k ∧ Core C Γ .semi k o
  | .variable k l => Core C Γ (.lexical (.variable k l)) i o
  | .function f => Core C Γ (.fnDecl true f) i o ∧
      (isAsync f = false → head i = .keyword .function) ∧ (isAsync f = true → head i = .ident) ∧
      (hasName f = true → Core C Γ (.fnDecl false f) i o)
  | .class c => Core C Γ (.cls true c) i o ∧
      ∀ n s l, c = .mk (some n) s l → Core C Γ (.cls false c) i o
  | .import x => Core C Γ (.importDecl x) i o
  | .export e => Core C Γ (.exportDecl e) i o

/-- `export default` with an expression. -/
def isOpen : Decl → Bool
  | .export (.defaultExpr _) => true
  | _ => false

/-- What program parts start with. -/
def partStart (t : Token) : Bool := after t && t != .string

def DeclOk (C : Cfg) (Γ : Env) (d : Decl) : Prop :=
  ∀ i o, Sp C (decl Γ d) i o → (isOpen d = true → ends (head o) = true) →
    partStart (head i) = true ∧ DeclResult C Γ i o d

def ModExportOk (C : Cfg) (Γ : Env) (e : ModExport) : Prop :=
  ∀ t i o, Sp C (modExport Γ e) i o → (isOpen (.export e) = true → ends (head o) = true) →
    Kw t .export → Core C Γ (.exportDecl e) (t :: i) o

/-- What a program part reads as. -/
def PartResult (C : Cfg) (Γ : Env) (pro : Bool) (i o : List Tok) : ProgramPart → Prop
  | .dir s d => pro = true ∧ d = trimQuotes s ∧ s ≠ t!"use strict" ∧
      ∃ t t', i = t :: t' :: o ∧ t.item.token = .string ∧ Is t' .semiColon ∧
        C.text t = s ∧ s ≠ t!"async"
  | x => partStart (head i) = true ∧ Core C Γ (.listItem x) i o

def PartOk (C : Cfg) (Γ : Env) (x : ProgramPart) : Prop :=
  ∀ pro i o, Sp C (part Γ pro x) i o → after (head o) = true →
    (isOpenExport x = true → ends (head o) = true) → PartResult C Γ pro i o x

/-! ## Imports -/

theorem sep_text {α : Type} {l : List α} {i o : List Tok} (h : Sp C (sep l) i o) :
    l = [] ∧ i = o ∨ l ≠ [] ∧ ∃ t, i = t :: o ∧ Is t .comma ∧ C.text t = t!"," := by
  cases l with
  | nil => exact .inl ⟨rfl, sp_nil.1 h⟩
  | cons x l =>
    refine .inr ⟨by simp, ?_⟩
    simp only [sep, List.isEmpty_cons, Bool.false_eq_true, if_false, sp_cons, sp_nil,
      matches_p] at h
    obtain ⟨t, _, rfl, ⟨h1, h2⟩, rfl⟩ := h
    exact ⟨t, rfl, h1, h2⟩

theorem importSpec_ok {s} {i o : List Tok} (hx : ExtOk C.ext) (h : Sp C (importSpec s) i o)
    (ho : C.other t!"as" o) : Core C Γ (.importSpec s) i o := by
  cases s with
  | normal n m =>
    cases m with
    | none => exact .importSpec (ident_ok h _) ho
    | some m =>
      simp only [importSpec, sp_cat, sp_cons, sp_nil, matches_word] at h
      obtain ⟨_, h1, _, ⟨t, _, rfl, ⟨-, h2⟩, rfl⟩, h3⟩ := h
      obtain ⟨u, rfl, rfl, -, h5, h6, -⟩ := keyName_ok hx h1
      by_cases hu : u.item.token = .ident
      · exact .importAs (.ident hu fun _ => h5) h2 (ident_ok h3 _)
      · refine .importNameAs hu ?_ h2 (ident_ok h3 _)
        intro hh; rw [hh] at h6; cases h6
  | _ => exact (sp_none.1 h).elim

theorem importSeq_ok {l} {i o : List Tok} (hx : ExtOk C.ext) (h : Sp C (importSeq l) i o)
    (ho : C.other t!"as" o) (hb : head o = .punct .closeBrace) :
    Core C Γ (.importSeq l) i o := by
  induction l generalizing i with
  | nil =>
    have := sp_nil.1 h
    subst this
    exact .importSeqEnd hb
  | cons s l ih =>
    simp only [importSeq, sp_cat] at h
    obtain ⟨j, h1, k, h2, h3⟩ := h
    rcases sep_text h2 with ⟨rfl, rfl⟩ | ⟨-, t, rfl, h4, h5⟩
    · have := sp_nil.1 h3
      subst this
      exact .importSeqLast (importSpec_ok hx h1 ho) hb
    · exact .importSeqMore (importSpec_ok hx h1 (show C.text t ≠ _ by rw [h5]; decide)) h4 (ih h3)

theorem named_ok {l} {i o : List Tok} (hx : ExtOk C.ext) (h : Sp C (namedImports l) i o) :
    Core C Γ (.named l) i o := by
  simp only [namedImports, sp_cat, sp_cons, sp_nil, matches_p] at h
  obtain ⟨_, ⟨t, _, rfl, ⟨h1, -⟩, rfl⟩, _, h2, t', _, rfl, ⟨h3, h3'⟩, rfl⟩ := h
  exact .named h1 (importSeq_ok hx h2 (show C.text t' ≠ _ by rw [h3']; decide) h3) h3

theorem nsImport_ok {n} {i o : List Tok} (h : Sp C (nsImport n) i o) :
    Core C Γ (.nsImport (.namespace n)) i o := by
  simp only [nsImport, sp_cons, sp_nil, matches_p, matches_word] at h
  obtain ⟨t, _, rfl, ⟨h1, -⟩, t', _, rfl, ⟨-, h2⟩, t'', _, rfl, ⟨-, rfl⟩, rfl⟩ := h
  exact .nsImport h1 h2

theorem imports_ok {l} {i o : List Tok} (hx : ExtOk C.ext) (h : Sp C (imports l) i o)
    (ho : head o ≠ .punct .comma) : Core C Γ (.imports l) i o := by
  unfold imports at h
  split at h
  · exact .importsNs (nsImport_ok h)
  · obtain ⟨t, rfl, h1, rfl, -⟩ := name_ok h
    exact .importsDefault (by simp [importable, Token.isIdent, h1]) ho
  · simp only [sp_cat, sp_cons, sp_nil, matches_p] at h
    obtain ⟨_, h1, _, ⟨t, _, rfl, ⟨h2, -⟩, rfl⟩, h3⟩ := h
    obtain ⟨u, rfl, h4, rfl, -⟩ := name_ok h1
    exact .importsDefaultNs (by simp [importable, Token.isIdent, h4]) h2 (nsImport_ok h3)
  · simp only [sp_cat, sp_cons, sp_nil, matches_p] at h
    obtain ⟨_, h1, _, ⟨t, _, rfl, ⟨h2, -⟩, rfl⟩, h3⟩ := h
    obtain ⟨u, rfl, h4, rfl, -⟩ := name_ok h1
    exact .importsDefaultNamed (by simp [importable, Token.isIdent, h4]) h2 (named_ok hx h3)
  · exact .importsNamed (named_ok hx h)

theorem importDecl_ok {x} {i o : List Tok} (hx : ExtOk C.ext) (h : Sp C (importDecl x) i o) :
    head i = .keyword .import ∧ Core C Γ (.importDecl x) i o := by
  obtain ⟨l, s⟩ := x
  unfold importDecl at h
  split at h
  · next heq =>
    cases heq
    simp only [sp_cat, sp_cons, sp_nil, matches_p, matches_k] at h
    obtain ⟨_, ⟨t, _, rfl, ⟨h1, -⟩, rfl⟩, _, h2, t', _, rfl, ⟨h3, -⟩, rfl⟩ := h
    obtain ⟨u, rfl, h4, rfl, -⟩ := str_ok h2
    exact ⟨h1, .importBare h1 h4 (semi_ok h3)⟩
  · next heq =>
    cases heq
    simp only [sp_cat, sp_cons, sp_nil, matches_p, matches_k, matches_word] at h
    obtain ⟨_, ⟨t, _, rfl, ⟨h1, -⟩, rfl⟩, _, h2, _, ⟨t', _, rfl, ⟨h3, h3'⟩, rfl⟩, _, h4, t'', _, rfl,
      ⟨h5, -⟩, rfl⟩ := h
    obtain ⟨u, rfl, h6, rfl, -⟩ := str_ok h4
    refine ⟨h1, .importFrom h1 (imports_ok hx h2 ?_) h3' h6 (semi_ok h5)⟩
    show t'.item.token ≠ _; rw [h3]; decide

/-! ## Exports -/

theorem word_not_punct {n : Txt} {q : Punct} : wordToken n ≠ .punct q := by
  rcases wordToken_cases n with h | ⟨b, h⟩ | h | ⟨x, h⟩ <;> rw [h] <;> simp

theorem wordToken_keyword {n : Txt} {x : Keyword} (h : wordToken n = .keyword x) : n = x.text := by
  unfold wordToken at h
  split at h
  · cases h
  · split at h
    · cases h
    · split at h
      · cases h
      · split at h
        · next k hk =>
          cases h
          have := List.find?_some hk
          exact (beq_iff_eq.1 this).symm
        · cases h

theorem matches_default {n : Txt} (h : (n == t!"default") = false) :
    (wordToken n).matchesKeyword .default = false := by
  rcases wordToken_cases n with h' | ⟨b, h'⟩ | h' | ⟨x, h'⟩
  · rw [h']; rfl
  · rw [h']; rfl
  · rw [h']; rfl
  · have := wordToken_keyword h'
    rw [h']
    cases x <;> first | rfl | (exfalso; subst this; revert h; decide)

theorem exportSpec_ok {s} {i o : List Tok} (h : Sp C (exportSpec s) i o) (ho : C.other t!"as" o) :
    ∃ d, Core C Γ (.exportSpec d s) i o ∧ ((s.local_ == t!"default") = false → d = false) := by
  obtain ⟨n, m⟩ := s
  cases m with
  | none =>
    simp only [exportSpec, sp_cons, sp_nil, matches_word] at h
    obtain ⟨t, _, rfl, ⟨h1, rfl⟩, rfl⟩ := h
    exact ⟨_, .exportSpec (by rw [h1]; exact word_not_punct) ho, fun hh => by
      rw [h1]; exact matches_default hh⟩
  | some m =>
    simp only [exportSpec, sp_cons, sp_nil, matches_word] at h
    obtain ⟨t, _, rfl, ⟨h1, rfl⟩, t', _, rfl, ⟨-, h2⟩, t'', _, rfl, ⟨-, rfl⟩, rfl⟩ := h
    exact ⟨_, .exportAs (by rw [h1]; exact word_not_punct) h2, fun hh => by
      rw [h1]; exact matches_default hh⟩

theorem exportSeq_ok {l} {i o : List Tok} (h : Sp C (exportSeq l) i o) (ho : C.other t!"as" o)
    (hb : head o = .punct .closeBrace) :
    ∃ d, Core C Γ (.exportSeq d l) i o ∧ (exportsDefault l = false → d = false) := by
  induction l generalizing i with
  | nil =>
    have := sp_nil.1 h
    subst this
    exact ⟨_, .exportSeqEnd hb, fun _ => rfl⟩
  | cons s l ih =>
    simp only [exportSeq, sp_cat] at h
    obtain ⟨j, h1, k, h2, h3⟩ := h
    rcases sep_text h2 with ⟨rfl, rfl⟩ | ⟨-, t, rfl, h4, h5⟩
    · have := sp_nil.1 h3
      subst this
      obtain ⟨d, g1, g2⟩ := exportSpec_ok h1 ho
      refine ⟨d, .exportSeqLast g1 hb, fun hh => g2 ?_⟩
      simpa [exportsDefault] using hh
    · obtain ⟨d, g1, g2⟩ := exportSpec_ok h1 (show C.text t ≠ _ by rw [h5]; decide)
      obtain ⟨d', g3, g4⟩ := ih h3
      refine ⟨_, .exportSeqMore g1 h4 g3, fun hh => ?_⟩
      simp only [exportsDefault, List.any_cons, Bool.or_eq_false_iff] at hh
      rw [g2 hh.1, g4 hh.2]; rfl

theorem ends_soft2 {t : Token} (h : ends t = true) : soft2 true t = true ∧ t ≠ .punct .fatArrow := by
  cases t with
  | punct x => cases x <;> first | exact ⟨by decide, by decide⟩ | exact absurd h (by decide)
  | keyword x => cases x <;> first | exact ⟨by decide, by decide⟩ | exact absurd h (by decide)
  | template x => cases h
  | _ => exact ⟨rfl, by simp⟩

theorem export_all {m} : ModExportOk C Γ (.all m) := by
  intro t i o h _ ht
  simp only [modExport, sp_cat, sp_cons, sp_nil, matches_p, matches_word] at h
  obtain ⟨_, ⟨t', _, rfl, ⟨h1, -⟩, t'', _, rfl, -, rfl⟩, _, h3, t3, _, rfl, ⟨h4, -⟩, rfl⟩ := h
  obtain ⟨u, rfl, h5, rfl, -⟩ := str_ok h3
  exact .exportAll ht h1 h5 (semi_ok h4)

theorem export_named {l m} : ModExportOk C Γ (.namedSpecifier l m) := by
  intro t i o h _ ht
  simp only [modExport, sp_only, sp_cat, sp_cons, sp_nil, matches_p] at h
  obtain ⟨h0, _, ⟨t', _, rfl, ⟨h1, h1'⟩, rfl⟩, _, h2, _, ⟨t'', _, rfl, ⟨h3, h3'⟩, rfl⟩, _, h4, t3, _, rfl,
    ⟨h5, h5'⟩, rfl⟩ := h
  obtain ⟨d, g1, g2⟩ := exportSeq_ok h2 (show C.text t'' ≠ _ by rw [h3']; decide) h3
  have ha : C.text t' ≠ t!"async" := by rw [h1']; decide
  cases m with
  | none =>
    have := sp_nil.1 h4
    subst this
    have hd := g2 (by simpa using h0)
    subst hd
    exact .exportNamed ht h1 ha g1 h3 (show C.text t3 ≠ _ by rw [h5']; decide) (semi_ok h5)
  | some m =>
    simp only [fromModule, sp_cat, sp_cons, sp_nil, matches_word] at h4
    obtain ⟨_, ⟨t4, _, rfl, ⟨-, h6⟩, rfl⟩, h7⟩ := h4
    obtain ⟨u, rfl, h8, rfl, -⟩ := str_ok h7
    exact .exportFrom ht h1 ha g1 h3 h6 h8 (semi_ok h5)

theorem export_defaultDecl {d} (ih : DeclOk C Γ d) : ModExportOk C Γ (.defaultDecl d) := by
  intro t i o h _ ht
  simp only [modExport, sp_only, sp_cat, sp_cons, sp_nil, matches_k] at h
  obtain ⟨h0, _, ⟨t', _, rfl, ⟨h1, -⟩, rfl⟩, h2⟩ := h
  have hd : isOpen d = true → ends (head o) = true := by
    intro hh; cases d <;> first | simp [defaultable] at h0; done | cases hh; done
  have h3 := (ih _ _ h2 hd).2
  cases d with
  | function f => exact .exportDefaultFn ht h1 h3.1
  | «class» c => exact .exportDefaultClass ht h1 h3.1
  | _ => simp [defaultable] at h0

theorem export_namedDecl {d} (ih : DeclOk C Γ d) : ModExportOk C Γ (.namedDecl d) := by
  intro t i o h _ ht
  simp only [modExport, sp_only, sp_cat] at h
  obtain ⟨h0, j, h1, h2⟩ := h
  have hd : isOpen d = true → ends (head j) = true := by
    intro hh; cases d <;> first | simp [exportable] at h0; done | cases hh; done
  have h3 := (ih _ _ h1 hd).2
  cases d with
  | «variable» kind l =>
    cases kind with
    | var =>
      obtain ⟨t', _, _, rfl, g1, g2, g3⟩ := h3
      have := sp_nil.1 h2
      subst this
      exact .exportVar ht g1 g2 g3
    | _ =>
      simp only [isLexical, bne_iff_ne, ne_eq, reduceCtorEq, not_false_eq_true, if_true, sp_cons,
        sp_nil, matches_p] at h2
      obtain ⟨t', _, rfl, ⟨h4, -⟩, rfl⟩ := h2
      exact .exportLexical ht h3 (semi_ok h4)
  | function f =>
    have := sp_nil.1 h2
    subst this
    obtain ⟨h3, h4, h5, h6⟩ := h3
    obtain ⟨id, ps, b, g, a⟩ := f
    cases a with
    | false => exact .exportFn ht (h4 rfl) h3
    | true => exact .exportAsync ht (h5 rfl) (h6 (by simpa [exportable, hasName] using h0))
  | «class» c =>
    have := sp_nil.1 h2
    subst this
    exact .exportClass ht h3.1
  | _ => simp [exportable] at h0

theorem export_defaultExpr {e} (hΓ : Γ.allowIn = true) (ih : ExprOk C Γ e) :
    ModExportOk C Γ (.defaultExpr e) := by
  intro t i o h ho ht
  simp only [modExport, sp_cat, sp_cons, sp_nil, matches_k] at h
  obtain ⟨_, ⟨t', i, rfl, ⟨h1, -⟩, rfl⟩, h2⟩ := h
  obtain ⟨h3, h3'⟩ := ends_soft2 (ho rfl)
  obtain ⟨⟨u, i, rfl, h4⟩, n, hn, h5⟩ := shield_ok (bad := badExport) rfl hΓ ih (by omega) h2 h3'
  have h6 : ∀ x, badExport x (C.text u) = true → u.item.token ≠ x := by
    intro x hx hh; rw [hh, hx] at h4; cases h4
  exact .exportDefaultExpr ht h1 (.inl (h5.other (by omega))) (h6 _ rfl) (h6 _ rfl) (h6 _ rfl) (h6 _ rfl)
    (.assign (h5.single_soft (by omega) (by rw [hΓ]; exact h3) (.inl (h5.other (by omega)))))

/-! ## Declarations -/

theorem partStart_kw {t : Tok} {x : Token} (h : t.item.token = x) (hx : partStart x = true)
    (k : List Tok) : partStart (head (t :: k)) = true := by
  show partStart t.item.token = true; rw [h, hx]

theorem decl_variable {kind l} (hΓ : Γ.allowIn = true) (ih : VarDeclsOk C Γ l) :
    DeclOk C Γ (.variable kind l) := by
  intro i o h _
  simp only [decl, sp_only, sp_cat, sp_cons, sp_nil, matches_p, matches_k] at h
  obtain ⟨h0, _, ⟨t, _, rfl, ⟨h1, -⟩, rfl⟩, j, h2, t', _, rfl, ⟨h3, -⟩, rfl⟩ := h
  have hl : l ≠ [] := by simpa using h0
  have hs : ∀ k, soft0 true (head (t' :: k)) = true := fun k => by
    show soft0 true t'.item.token = true; rw [h3]; decide
  have hy : ∀ k, 1 = 1 → yieldStart (head (t' :: k)) = false := fun k _ => by
    show yieldStart t'.item.token = false; rw [h3]; decide
  cases kind with
  | var =>
    have := varDs_ok (s := true) hΓ (.inl ⟨rfl, rfl⟩) ih hl h2 (hs _) (hy _)
    rw [within_true hΓ] at this
    exact ⟨partStart_kw h1 rfl _, t, _, _, rfl, h1, this, semi_ok h3⟩
  | «let» =>
    have := lexDs_ok hΓ (.inl ⟨rfl, rfl⟩) ih hl (by simp) h2 (hs _) (hy _)
    rw [within_true hΓ] at this
    exact ⟨partStart_kw h1 rfl _, .lexLet h1 this (semi_ok h3)⟩
  | const =>
    have := lexDs_ok hΓ (.inl ⟨rfl, rfl⟩) ih hl (by simp) h2 (hs _) (hy _)
    rw [within_true hΓ] at this
    exact ⟨partStart_kw h1 rfl _, .lexConst h1 this (semi_ok h3)⟩

theorem decl_function {f} (ih : FuncOk C Γ f) : DeclOk C Γ (.function f) := by
  intro i o h _
  obtain ⟨h1, h2, h3, -⟩ := ih false _ _ (by simpa only [decl] using h)
  refine ⟨?_, (h3 rfl).1, fun h => (h1 h).1, h2, (h3 rfl).2⟩
  cases ha : isAsync f with
  | false => rw [(h1 ha).1]; rfl
  | true => rw [h2 ha]; rfl

theorem decl_class {c} (ih : ClsOk C Γ c) : DeclOk C Γ (.class c) := by
  intro i o h _
  obtain ⟨h1, -, h2, h3⟩ := ih true _ _ (by simpa only [decl] using h)
  exact ⟨by rw [h1]; rfl, h2, h3⟩

theorem decl_import {x} (hx : ExtOk C.ext) : DeclOk C Γ (.import x) := by
  intro i o h _
  obtain ⟨h1, h2⟩ := importDecl_ok (Γ := Γ) hx (by simpa only [decl] using h)
  exact ⟨by rw [h1]; rfl, h2⟩

theorem decl_export {e} (ih : ModExportOk C Γ e) : DeclOk C Γ (.export e) := by
  intro i o h ho
  simp only [decl, sp_cat, sp_cons, sp_nil, matches_k] at h
  obtain ⟨_, ⟨t, _, rfl, ⟨h1, -⟩, rfl⟩, h2⟩ := h
  exact ⟨partStart_kw h1 rfl _, ih _ _ _ h2 ho h1⟩

/-! ## Program parts -/

theorem part_dir {s d} : PartOk C Γ (.dir s d) := by
  intro pro i o h _ _
  simp only [part, sp_only, sp_cat, sp_cons, sp_nil, matches_p, Bool.and_eq_true,
    decide_eq_true_eq] at h
  obtain ⟨⟨h0, h1, h2⟩, _, h3, t', _, rfl, ⟨h4, -⟩, rfl⟩ := h
  obtain ⟨t, rfl, h5, h6, h7⟩ := str_ok h3
  exact ⟨h0, h1, h2, t, t', rfl, h5, h4, h6, h7⟩

theorem part_decl {d} (ih : DeclOk C Γ d) : PartOk C Γ (.decl d) := by
  intro pro i o h _ ho
  simp only [part, sp_only] at h
  obtain ⟨h0, h1⟩ := h
  have ho' : isOpen d = true → ends (head o) = true := by
    intro hh
    refine ho ?_
    cases d with
    | «export» e => cases e <;> first | rfl | cases hh
    | _ => cases hh
  obtain ⟨h2, h3⟩ := ih _ _ h1 ho'
  refine ⟨h2, ?_⟩
  cases d with
  | «variable» kind l =>
    cases kind with
    | var => cases h0
    | _ => exact .itemLexical h3
  | function f =>
    obtain ⟨id, ps, b, g, a⟩ := f
    exact .itemFunction (h3.2.1 (by simpa [declItem, isAsync] using h0)) h3.1
  | «class» c =>
    obtain ⟨id, s, l⟩ := c
    cases id with
    | none => cases h0
    | some n => exact .itemClass (h3.2 _ _ _ rfl)
  | «import» x => exact .itemImport h3
  | «export» e => exact .itemExport h3

theorem part_stmt {s} (ih : StmtOk C Γ s) : PartOk C Γ (.stmt s) := by
  intro pro i o h ho _
  obtain ⟨g1, g2, g3⟩ := after_ne ho
  obtain ⟨h1, h2⟩ := ih _ _ (by simpa only [part] using h) (fun _ => g1) g2 g3
  simp only [stmtStart, Bool.and_eq_true] at h1
  exact ⟨by simp [partStart, h1.1.1, h1.2], .itemStmt h1.1.2 h2⟩

theorem follow_ends {t : Token} (h : Follow t) : ends t = true := by
  rcases h with rfl | rfl | rfl | rfl <;> decide

theorem followed_ok {x : ProgramPart} {a b : Out} {i o : List Tok} (h : Sp C (followed x a b) i o)
    (ho : Follow (head o)) : ∃ j, Sp C a i j ∧ Sp C b j o ∧
      (isOpenExport x = true → ends (head j) = true) := by
  simp only [followed, sp_only, sp_cat, Bool.or_eq_true, Bool.not_eq_true'] at h
  obtain ⟨h0, j, h1, h2⟩ := h
  refine ⟨j, h1, h2, fun hx => ?_⟩
  obtain ⟨l, rfl, h3⟩ := h2
  have h0 := h0.resolve_left (by rw [hx]; simp)
  cases l with
  | nil =>
    have h3 : j = o := h3
    subst h3
    exact follow_ends ho
  | cons y l =>
    obtain ⟨t, k, rfl, ⟨h4, -⟩, -⟩ := h3
    show ends t.item.token = true
    rw [h4]
    simpa [startsWith] using h0

theorem parts_nil : PartsOk C Γ [] := by
  intro pro i o h ho
  simp only [parts, sp_nil] at h
  subst h
  obtain ⟨h1, h2⟩ := follow_after ho
  exact ⟨[], [], i, rfl, fun _ => ⟨rfl, rfl⟩, fun _ _ => .prologueEnd h2, .itemsEnd,
    fun _ _ _ _ h => h, h1, h2⟩

theorem literal_expression {s} {t t' : Tok} {o : List Tok} (ht : t.item.token = .string)
    (h : C.text t = s) (hs : s ≠ t!"async") (ht' : Is t' .semiColon) (hΓ : Γ.allowIn = true) :
    Core C Γ (.expression (.literal (.string s))) (t :: t' :: o) (t' :: o) := by
  subst h
  refine (W.ofPrimary hΓ ht rfl hs (.primString ht)).expression ?_
  rw [hΓ]; show stop0 true t'.item.token = true; rw [ht']; decide

theorem parts_cons {x l} (ihx : PartOk C Γ x) (ih : PartsOk C Γ l) : PartsOk C Γ (x :: l) := by
  intro pro i o h ho
  simp only [parts] at h
  obtain ⟨j, h1, h2, h3⟩ := followed_ok h ho
  obtain ⟨ds, l', m, rfl, g1, g2, g3, g4, g5, g6⟩ := ih _ _ _ h2 ho
  have hr := ihx _ _ _ h1 g5 h3
  cases x with
  | dir s d =>
    obtain ⟨rfl, rfl, k1, t, t', rfl, k2, k3, k4, k5⟩ := hr
    refine ⟨.dir s (trimQuotes s) :: ds, l', m, rfl, by simp, ?_, g3, ?_, ?_, g6⟩
    · exact fun Γ' hΓ => .prologueDir k2 (literal_expression k2 k4 k5 k3 hΓ) k1 (semi_ok k3)
        (g2 _ hΓ)
    · exact fun Γ' l'' o' hΓ h => .partsDir k2 (literal_expression k2 k4 k5 k3 hΓ) k1 (semi_ok k3)
        (g4 _ _ _ hΓ h)
    · show after t.item.token = true; rw [k2]; rfl
  | _ =>
    obtain ⟨rfl, rfl⟩ := g1 (by simp [isDirPart])
    obtain ⟨k1, k2⟩ := hr
    simp only [partStart, Bool.and_eq_true, bne_iff_ne] at k1
    exact ⟨[], _, i, rfl, fun _ => ⟨rfl, rfl⟩, fun _ _ => .prologueEnd k1.2, .itemsMore k2 g3,
      fun _ _ _ _ h => h, k1.1, k1.2⟩

/-- The statements of a program. -/
theorem parts_true {l} {i o : List Tok} (h : Core C Γ (.items l) i o) (ho : head o = .eof) :
    Core C Γ (.parts true l) i o := by
  induction l generalizing i with
  | nil => cases h; exact .partsEnd ho
  | cons x l ih =>
    cases h with
    | itemsMore h1 h2 => exact .partsItem (.inl rfl) h1 (ih h2)

theorem body_ok {l} (hΓ : Γ.allowIn = true) (ih : PartsOk C Γ.body l) : BodyOk C Γ l := by
  intro i o h
  simp only [inBraces, sp_cat, sp_cons, sp_nil, matches_p] at h
  obtain ⟨_, ⟨t, _, rfl, ⟨h1, -⟩, rfl⟩, _, h2, t', _, rfl, ⟨h3, -⟩, rfl⟩ := h
  obtain ⟨ds, l', j, rfl, -, g2, g3, -⟩ := ih _ _ _ h2 (.inl h3)
  exact .body h1 (g2 _ hΓ) g3 h3

theorem program_ok {l} {i o : List Tok} (hΓ : Γ.allowIn = true) (ih : PartsOk C Γ l) (h : Sp C (parts Γ true l) i o)
    (ho : head o = .eof) : Core C Γ (.parts false l) i o := by
  obtain ⟨ds, l', j, rfl, -, -, g3, g4, -, g6⟩ := ih _ _ _ h (.inr (.inl ho))
  refine g4 _ _ _ hΓ ?_
  cases l' with
  | nil => cases g3; exact .partsEnd ho
  | cons x l =>
    cases g3 with
    | itemsMore h1 h2 => exact .partsItem (.inr g6) h1 (parts_true h2 ho)

end Ressa.Print
