import Verif.Proof.PrintArrow

/-!
# Printed statements
-/

namespace Ressa.Print
open Ressa.Gr

variable {C : Cfg} {Γ : Env}

/-! ## What is proved -/

/-- The parts of a declared variable. -/
def VarDeclOk (C : Cfg) (Γ : Env) : VariableDecl → Prop
  | .mk q none => PatOk C Γ q
  | .mk q (some e) => PatOk C Γ q ∧ ExprOk C Γ e

/-- The parts of declared variables. -/
def VarDeclsOk (C : Cfg) (Γ : Env) (l : List VariableDecl) : Prop := ∀ d ∈ l, VarDeclOk C Γ d

/-- What a statement may not be followed by. -/
def after (t : Token) : Bool :=
  t != .keyword .else && t != .keyword .catch && t != .keyword .finally

/-- What statements start with. -/
def stmtStart (t : Token) : Bool := after t && itemIsStmt t && t != .string

def StmtOk (C : Cfg) (Γ : Env) (s : Stmt) : Prop :=
  ∀ i o, Sp C (stmt Γ s) i o → (openIf s = true → head o ≠ .keyword .else) →
    head o ≠ .keyword .catch → head o ≠ .keyword .finally →
    stmtStart (head i) = true ∧ Core C Γ (.stmt s) i o

/-- What ends a list of statements. -/
def Follow (t : Token) : Prop :=
  t = .punct .closeBrace ∨ t = .eof ∨ t = .keyword .case ∨ t = .keyword .default

def PartsOk (C : Cfg) (Γ : Env) (l : List ProgramPart) : Prop :=
  ∀ pro i o, Sp C (parts Γ pro l) i o → Follow (head o) →
    ∃ ds l' j, l = ds ++ l' ∧ (pro = false → ds = [] ∧ i = j) ∧
      (∀ Γ' : Env, Γ'.allowIn = true → Core C Γ' (.prologue ds) i j) ∧ Core C Γ (.items l') j o ∧
      (∀ (Γ' : Env) l'' o', Γ'.allowIn = true → Core C Γ' (.parts false l'') j o' →
        Core C Γ' (.parts false (ds ++ l'')) i o') ∧
      after (head i) = true ∧ head j ≠ .string

def CasesOk (C : Cfg) (Γ : Env) (l : List SwitchCase) : Prop :=
  ∀ found i o, Sp C (cases Γ l) i o → head o = .punct .closeBrace →
    (l.filter isDefault).length + found.toNat ≤ 1 →
    (head i = .punct .closeBrace ∨ head i = .keyword .default ∨ head i = .keyword .case) ∧
    Core C Γ (.cases found l) i o

def HandlerOk (C : Cfg) (Γ : Env) : Option CatchClause → Prop
  | none => True
  | some (.mk none l) => PartsOk C Γ l
  | some (.mk (some q) l) => PatOk C Γ q ∧ PartsOk C Γ l

def FinalizerOk (C : Cfg) (Γ : Env) : Option (List ProgramPart) → Prop
  | none => True
  | some l => PartsOk C Γ l

def OptOk (C : Cfg) (Γ : Env) : Option Expr → Prop
  | none => True
  | some e => ExprOk C Γ e

def InitOk (C : Cfg) (Γ : Env) : Option LoopInit → Prop
  | none => True
  | some (.variable _ l) => VarDeclsOk C Γ l
  | some (.expr e) => ExprOk C Γ e

def LeftOk (C : Cfg) (Γ : Env) : LoopLeft → Prop
  | .variable _ d => VarDeclOk C Γ d
  | .expr e => ExprOk C Γ e

/-! ## Starts -/

theorem front_starts {n : Nat} {t : Token} (h : front n t = true) :
    starts t = true ∨ t = .keyword .let := by
  simp only [front, Bool.and_eq_true, Bool.or_eq_true, decide_eq_true_eq, beq_iff_eq] at h
  exact h.1.1.1.1.imp_right (·.2)

theorem starts_stmt {t : Token} {w : Txt} (h : starts t = true ∨ t = .keyword .let) (hb : badStmt t w = false) :
    stmtStart t = true ∧ exprStmtStart t = true := by
  replace h := h.resolve_right (by rintro rfl; cases hb)
  cases t with
  | punct x => cases x <;> first | exact ⟨rfl, rfl⟩ | exact absurd h (by decide) | simp [badStmt] at hb; done
  | keyword x => cases x <;> first | exact ⟨rfl, rfl⟩ | exact absurd h (by decide) | simp [badStmt] at hb; done
  | _ => first | exact ⟨rfl, rfl⟩ | simp [badStmt] at hb; done | cases h; done

theorem badStmt_async {t : Token} {w : Txt} (hb : badStmt t w = false) : w ≠ t!"async" := by
  rintro rfl
  unfold badStmt at hb
  split at hb <;> cases hb

theorem stmtStart_after {t : Token} (h : stmtStart t = true) :
    t ≠ .keyword .else ∧ t ≠ .keyword .catch ∧ t ≠ .keyword .finally ∧ t ≠ .string ∧
      t ≠ .keyword .class ∧ t ≠ .keyword .function := by
  refine ⟨?_, ?_, ?_, ?_, ?_, ?_⟩ <;> rintro rfl <;> revert h <;> decide

theorem after_ne {t : Token} (h : after t = true) :
    t ≠ .keyword .else ∧ t ≠ .keyword .catch ∧ t ≠ .keyword .finally := by
  simpa [after, and_assoc] using h

theorem follow_after {t : Token} (h : Follow t) : after t = true ∧ t ≠ .string := by
  rcases h with rfl | rfl | rfl | rfl <;> decide

theorem semi_ok {t : Tok} {o : List Tok} (h : Is t .semiColon) : Core C Γ .semi (t :: o) o :=
  .semiToken h

/-- An expression in front of a concrete token. -/
theorem sub_expr {e t} {i o : List Tok} {x : Token} (hΓ : Γ.allowIn = true) (ih : ExprOk C Γ e)
    (h : Sp C (sub 0 e (expr Γ e)) i (t :: o)) (ht : t.item.token = x)
    (hx : stop0 true x = true) : Core C Γ (.expression e) i (t :: o) :=
  sub_expression hΓ ih h (by show stop0 true t.item.token = true; rw [ht, hx])

/-! ## Variables -/

theorem kind_init {e : Expr} {n : Nat} {b : Bool} {i o : List Tok} (hΓ : Γ.allowIn = true)
    (hn : n = 1 ∧ b = true ∨ n = 20) (ih : ExprOk C Γ e) (h : Sp C (sub n e (expr Γ e)) i o)
    (ho : soft2 b (head o) = true) (hy : n = 1 → yieldStart (head o) = false) : Core C (Γ.within b) (.assign (flags e) e) i o := by
  rcases hn with ⟨rfl, rfl⟩ | rfl
  · exact toWithin hΓ (sub_assign hΓ ih h (by simp [stop2, ho, hy rfl]))
  · exact sub_closed_assign hΓ ih h b ho

/-- Nothing that continues an expression or a list. -/
def soft0 (b : Bool) (t : Token) : Bool := soft2 b t && t != .punct .comma

theorem soft0_soft2 {b : Bool} {t : Token} (h : soft0 b t = true) :
    soft2 b t = true ∧ t ≠ .punct .comma := by
  simpa [soft0] using h

theorem stop0_soft0 {b : Bool} {t : Token} (h : stop0 b t = true) :
    soft0 b t = true ∧ yieldStart t = false := by
  simp only [stop0, stop2, Bool.and_eq_true] at h
  exact ⟨by simp [soft0, h], by simpa using h.1.2⟩

theorem soft2_assign {b : Bool} {t : Token} (h : soft2 b t = true) : t ≠ .punct .assign := by
  rintro rfl; cases b <;> revert h <;> decide

theorem strict_pat {q : Pat} {s : Bool} (h : (isPlain q && !(s && isRestrictedPat q)) = true) :
    isPlain q = true ∧ (s = true → isRestrictedPat q = true → C.tolerant = true) := by
  simp only [Bool.and_eq_true] at h
  refine ⟨h.1, fun h1 h2 => ?_⟩
  rw [h1, h2] at h
  cases h.2

theorem varD_ok {d s n kind f g b} {i o : List Tok} (hΓ : Γ.allowIn = true)
    (hn : n = 1 ∧ b = true ∨ n = 20) (ih : VarDeclOk C Γ d) (hk : kind = .var)
    (h : Sp C (varDecl Γ n kind f g d) i o) (ho : soft2 b (head o) = true)
    (hy : n = 1 → yieldStart (head o) = false) :
    Core C (Γ.within b) (.varD s f d) i o := by
  subst hk
  obtain ⟨q, e⟩ := d
  cases e with
  | none =>
    simp only [varDecl, sp_only, Bool.and_eq_true] at h
    obtain ⟨⟨h1, h2⟩, h3⟩ := h
    obtain ⟨h4, h5⟩ := strict_pat (C := C) (by simpa using h1)
    exact .varNone ((ih _ _ h3).plain h4 b) (soft2_assign ho) (fun _ => h5) (by
      simpa [bare] using h2)
  | some e =>
    simp only [varDecl, sp_only, sp_cat, sp_cons, sp_nil, matches_p] at h
    obtain ⟨_, ⟨h1, h2⟩, _, ⟨t, _, rfl, ⟨h3, -⟩, rfl⟩, h4⟩ := h
    obtain ⟨h5, h6⟩ := strict_pat (C := C) h1
    exact .varInit ((ih.1 _ _ h2).plain h5 b) h3 (fun _ => h6) (kind_init hΓ hn ih.2 h4 ho hy)

/-- A printed pattern does not start with a keyword. -/
theorem pat_front {q : Pat} {i o : List Tok} (h : Sp C (pat Γ q) i o) (hq : isPlain q = true) :
    lexStart (head i) = true := by
  cases q with
  | identifier n =>
    obtain ⟨t, rfl, h1, -⟩ := name_ok (by simpa only [pat] using h)
    show lexStart t.item.token = true; rw [h1]; rfl
  | array l =>
    simp only [pat, sp_cat, sp_cons, sp_nil, matches_p] at h
    obtain ⟨_, ⟨t, _, rfl, ⟨h1, -⟩, rfl⟩, -⟩ := h
    show lexStart t.item.token = true; rw [h1]; rfl
  | object l =>
    simp only [pat, sp_cat, sp_cons, sp_nil, matches_p] at h
    obtain ⟨_, ⟨t, _, rfl, ⟨h1, -⟩, rfl⟩, -⟩ := h
    show lexStart t.item.token = true; rw [h1]; rfl
  | _ => cases hq

theorem lexD_ok {d n kind f g b} {i o : List Tok} (hΓ : Γ.allowIn = true)
    (hn : n = 1 ∧ b = true ∨ n = 20) (ih : VarDeclOk C Γ d) (hk : kind ≠ .var)
    (h : Sp C (varDecl Γ n kind f g d) i o) (ho : soft2 b (head o) = true)
    (hy : n = 1 → yieldStart (head o) = false)
    (hg : g = true → ∃ t o', o = t :: o' ∧ (Kw t .in ∨ C.text t = t!"of")) :
    Core C (Γ.within b) (.lexD kind f d) i o := by
  obtain ⟨q, e⟩ := d
  cases e with
  | none =>
    simp only [varDecl, sp_only, Bool.and_eq_true] at h
    obtain ⟨⟨h1, h2⟩, h3⟩ := h
    obtain ⟨h4, h5⟩ := strict_pat (C := C) (by simpa using h1)
    cases kind with
    | var => exact absurd rfl hk
    | «let» =>
      exact .lexNone (pat_front h3 h4) ((ih _ _ h3).plain h4 b) (soft2_assign ho) h5 (by simpa [bare] using h2)
    | const =>
      obtain ⟨t, o', rfl, h6⟩ := hg (by simpa [bare] using h2)
      exact .lexConstIn (pat_front h3 h4) ((ih _ _ h3).plain h4 b) h6 h5
  | some e =>
    simp only [varDecl, sp_only, sp_cat, sp_cons, sp_nil, matches_p] at h
    obtain ⟨_, ⟨h1, h2⟩, _, ⟨t, _, rfl, ⟨h3, h3'⟩, rfl⟩, h4⟩ := h
    obtain ⟨h5, h6⟩ := strict_pat (C := C) h1
    exact .lexInit (pat_front h2 h5) ((ih.1 _ _ h2).plain h5 b) h3 (by rw [h3']; decide) h6
      (kind_init hΓ hn ih.2 h4 ho hy)

theorem varDs_ok {l s n f b} {i o : List Tok} (hΓ : Γ.allowIn = true)
    (hn : n = 1 ∧ b = true ∨ n = 20) (ih : VarDeclsOk C Γ l) (hl : l ≠ [])
    (h : Sp C (varDecls Γ n .var f l) i o) (ho : soft0 b (head o) = true)
    (hy : n = 1 → yieldStart (head o) = false) :
    Core C (Γ.within b) (.varDs s f l) i o := by
  induction l generalizing i with
  | nil => exact absurd rfl hl
  | cons d l ihl =>
    simp only [varDecls, sp_cat] at h
    obtain ⟨j, h1, k, h2, h3⟩ := h
    have hd := ih d (by simp)
    rcases sp_sep h2 with ⟨rfl, rfl⟩ | ⟨hl', t, rfl, h4⟩
    · simp only [varDecls, sp_nil] at h3
      subst h3
      exact .varLast (varD_ok hΓ hn hd rfl h1 (soft0_soft2 ho).1 hy) (soft0_soft2 ho).2
    · refine .varMore (varD_ok hΓ hn hd rfl h1 ?_ ?_) h4
        (ihl (fun d hd => ih d (by simp [hd])) hl' h3)
      · exact soft2_any (.inl h4)
      · intro _; show yieldStart t.item.token = false; rw [h4]; decide

theorem lexDs_ok {l n kind f b} {i o : List Tok} (hΓ : Γ.allowIn = true)
    (hn : n = 1 ∧ b = true ∨ n = 20) (ih : VarDeclsOk C Γ l) (hl : l ≠ []) (hk : kind ≠ .var)
    (h : Sp C (varDecls Γ n kind f l) i o) (ho : soft0 b (head o) = true)
    (hy : n = 1 → yieldStart (head o) = false) :
    Core C (Γ.within b) (.lexDs kind f l) i o := by
  induction l generalizing i with
  | nil => exact absurd rfl hl
  | cons d l ihl =>
    simp only [varDecls, sp_cat] at h
    obtain ⟨j, h1, k, h2, h3⟩ := h
    have hd := ih d (by simp)
    rcases sp_sep h2 with ⟨rfl, rfl⟩ | ⟨hl', t, rfl, h4⟩
    · simp only [varDecls, sp_nil] at h3
      subst h3
      exact .lexLast (lexD_ok hΓ hn hd hk h1 (soft0_soft2 ho).1 hy (by simp))
        (soft0_soft2 ho).2
    · refine .lexMore (lexD_ok hΓ hn hd hk h1 ?_ ?_ (by simp)) h4
        (ihl (fun d hd => ih d (by simp [hd])) hl' h3)
      · exact soft2_any (.inl h4)
      · intro _; show yieldStart t.item.token = false; rw [h4]; decide

/-! ## Simple statements -/

theorem stmt_expr {e} (hΓ : Γ.allowIn = true) (ih : ExprOk C Γ e) : StmtOk C Γ (.expr e) := by
  intro i o h _ _ _
  simp only [stmt, sp_cat, sp_cons, sp_nil, matches_p] at h
  obtain ⟨_, h1, t, _, rfl, ⟨h2, -⟩, rfl⟩ := h
  obtain ⟨⟨u, i, rfl, h3⟩, n, -, h4⟩ := shield_ok (bad := badStmt) (by decide) hΓ ih (by omega) h1 (by
    show t.item.token ≠ _; rw [h2]; decide)
  have hs := front_starts h4.front
  obtain ⟨h5, h6⟩ := starts_stmt hs h3
  refine ⟨h5, .stExpr h6 (.inl (badStmt_async h3)) (h4.expression ?_) ?_ (semi_ok h2)⟩
  · rw [hΓ]; show stop0 true t.item.token = true; rw [h2]; decide
  · show t.item.token ≠ _; rw [h2]; decide

theorem block_ok {l} {t t' : Tok} {i o : List Tok} (ih : PartsOk C Γ l) (ht : Is t .openBrace)
    (h : Sp C (parts Γ false l) i (t' :: o)) (ht' : Is t' .closeBrace) :
    Core C Γ (.block l) (t :: i) o := by
  obtain ⟨ds, l', j, rfl, h1, -, h2, -⟩ := ih _ _ _ h (.inl ht')
  obtain ⟨rfl, rfl⟩ := h1 rfl
  exact .block ht h2 ht'

theorem stmt_block {l} (ih : PartsOk C Γ l) : StmtOk C Γ (.block l) := by
  intro i o h _ _ _
  simp only [stmt, sp_cat, sp_cons, sp_nil, matches_p] at h
  obtain ⟨_, ⟨t, _, rfl, ⟨h1, -⟩, rfl⟩, j, h3, t', _, rfl, ⟨h4, -⟩, rfl⟩ := h
  exact ⟨by show stmtStart t.item.token = true; rw [h1]; rfl, .stBlock (block_ok ih h1 h3 h4)⟩

theorem stmt_empty : StmtOk C Γ .empty := by
  intro i o h _ _ _
  simp only [stmt, sp_cons, sp_nil, matches_p] at h
  obtain ⟨t, _, rfl, ⟨h1, -⟩, rfl⟩ := h
  exact ⟨by show stmtStart t.item.token = true; rw [h1]; rfl, .stEmpty h1⟩

theorem stmt_debugger : StmtOk C Γ .debugger := by
  intro i o h _ _ _
  simp only [stmt, sp_cons, sp_nil, matches_p, matches_k] at h
  obtain ⟨t, _, rfl, ⟨h1, -⟩, t', _, rfl, ⟨h2, -⟩, rfl⟩ := h
  exact ⟨by show stmtStart t.item.token = true; rw [h1]; rfl, .stDebugger h1 (semi_ok h2)⟩

theorem stmt_with {e s} (hΓ : Γ.allowIn = true) (ihe : ExprOk C Γ e) (ih : StmtOk C Γ s) :
    StmtOk C Γ (.with e s) := by
  intro i o h o1 o2 o3
  simp only [stmt, sp_only, sp_cat, sp_cons, sp_nil, matches_p, matches_k] at h
  obtain ⟨h0, _, ⟨t, _, rfl, ⟨h1, -⟩, t', _, rfl, ⟨h2, -⟩, rfl⟩, _, h3, _,
    ⟨t'', _, rfl, ⟨h4, -⟩, rfl⟩, h5⟩ := h
  refine ⟨by show stmtStart t.item.token = true; rw [h1]; rfl, .stWith h1 ?_ h2
    (sub_expr hΓ ihe h3 h4 (by decide)) h4 (ih _ _ h5 o1 o2 o3).2⟩
  intro hs; rw [hs] at h0; cases h0

theorem stmt_return_none : StmtOk C Γ (.return none) := by
  intro i o h _ _ _
  simp only [stmt, sp_only, sp_cons, sp_nil, matches_p, matches_k] at h
  obtain ⟨h0, t, _, rfl, ⟨h1, -⟩, t', _, rfl, ⟨h2, -⟩, rfl⟩ := h
  refine ⟨by show stmtStart t.item.token = true; rw [h1]; rfl, .stReturn h1 h0 ?_ (semi_ok h2)⟩
  simp only [Cfg.returnArg, head, h2]
  split <;> simp [Token.isString, Token.isTemplate]

theorem stmt_return_some {e} (hΓ : Γ.allowIn = true) (ihe : ExprOk C Γ e) :
    StmtOk C Γ (.return (some e)) := by
  intro i o h _ _ _
  simp only [stmt, sp_only, sp_cat, sp_cons, sp_nil, matches_p, matches_k] at h
  obtain ⟨h0, _, ⟨t, i, rfl, ⟨h1, -⟩, rfl⟩, _, h2, t', _, rfl, ⟨h3, -⟩, rfl⟩ := h
  obtain ⟨h4, h5⟩ := sp_glue h2
  obtain ⟨-, n, -, -, h6⟩ := sub_ok hΓ ihe (by omega) h4 (by
    show t'.item.token ≠ _; rw [h3]; decide)
  have hs := front_starts h6.front
  refine ⟨by show stmtStart t.item.token = true; rw [h1]; rfl, .stReturnArg h1 h0 ?_
    (sub_expr hΓ ihe h4 h3 (by decide)) (semi_ok h3)⟩
  have h5 : C.nl i = false := by
    rcases h5 with h5 | rfl
    · exact h5
    · exfalso
      simp only [head, h3] at hs
      rcases hs with hs | hs <;> cases hs
  simp only [Cfg.returnArg, h5, Bool.false_eq_true, if_false]
  cases hi : head i with
  | punct x => rw [hi] at hs; cases x <;> first | rfl | (rcases hs with hs | hs <;> cases hs)
  | eof => rw [hi] at hs; rcases hs with hs | hs <;> cases hs
  | _ => rfl

theorem stmt_labeled {n s} (hΓ : Γ.allowIn = true) (ih : StmtOk C (Γ.label n) s) :
    StmtOk C Γ (.labeled n s) := by
  intro i o h o1 o2 o3
  simp only [stmt, sp_only, sp_cat, sp_cons, sp_nil, matches_p] at h
  obtain ⟨h0, j, h1, _, ⟨t, _, rfl, ⟨h2, -⟩, rfl⟩, h3⟩ := h
  obtain ⟨h4, h5⟩ := ih _ _ h3 o1 o2 o3
  obtain ⟨-, -, -, -, h6, h7⟩ := stmtStart_after h4
  have he : Core C Γ (.expression (.ident n)) i (t :: _) :=
    ((expr_ident (C := C) hΓ _ _ (by simpa only [expr] using h1) (by
      show t.item.token ≠ _; rw [h2]; decide)).w rfl).expression (by
      rw [hΓ]; show stop0 true t.item.token = true; rw [h2]; decide)
  obtain ⟨u, rfl, h9, rfl, h10, -⟩ := name_ok h1
  exact ⟨by show stmtStart u.item.token = true; rw [h9]; rfl,
    .stLabeled h9 (.inl h10) he h2 (by simpa using h0) (.labelStmt h5 h6 h7)⟩

theorem label_ok {l : Option Txt} {t : Tok} {i o : List Tok} (h : Sp C (jumpLabel l) i (t :: o))
    (ht : Is t .semiColon) : Core C Γ (.optLabel l) i o := by
  cases l with
  | none =>
    have := sp_nil.1 h
    subst this
    exact .labelNone (.inl (by show t.item.token ≠ _; rw [ht]; decide)) (semi_ok ht)
  | some n =>
    obtain ⟨h1, h2⟩ := sp_glue h
    refine .label ?_ (ident_ok h1 _) (semi_ok ht)
    rcases h2 with h2 | rfl
    · exact h2
    · obtain ⟨u, h3, -⟩ := name_ok h1
      have := congrArg List.length h3
      simp at this

theorem stmt_break {l} : StmtOk C Γ (.break l) := by
  intro i o h _ _ _
  simp only [stmt, sp_cat, sp_cons, sp_nil, matches_p, matches_k] at h
  obtain ⟨_, ⟨t, _, rfl, ⟨h1, -⟩, rfl⟩, _, h2, t', _, rfl, ⟨h3, -⟩, rfl⟩ := h
  exact ⟨by show stmtStart t.item.token = true; rw [h1]; rfl, .stBreak h1 (label_ok h2 h3)⟩

theorem stmt_continue {l} : StmtOk C Γ (.continue l) := by
  intro i o h _ _ _
  simp only [stmt, sp_cat, sp_cons, sp_nil, matches_p, matches_k] at h
  obtain ⟨_, ⟨t, _, rfl, ⟨h1, -⟩, rfl⟩, _, h2, t', _, rfl, ⟨h3, -⟩, rfl⟩ := h
  exact ⟨by show stmtStart t.item.token = true; rw [h1]; rfl, .stContinue h1 (label_ok h2 h3)⟩

theorem clause_ok {s} {i o : List Tok} (h : stmtStart (head i) = true ∧ Core C Γ (.stmt s) i o) :
    Core C Γ (.clause s) i o :=
  .clause (fun _ hh => absurd hh (stmtStart_after h.1).2.2.2.2.2) h.2

theorem stmt_if {e s} (hΓ : Γ.allowIn = true) (ihe : ExprOk C Γ e) (ih : StmtOk C Γ s) :
    StmtOk C Γ (.if e s none) := by
  intro i o h o1 o2 o3
  simp only [stmt, sp_cat, sp_cons, sp_nil, matches_p, matches_k] at h
  obtain ⟨_, ⟨t, _, rfl, ⟨h1, -⟩, t', _, rfl, ⟨h2, -⟩, rfl⟩, _, h3, _,
    ⟨t'', _, rfl, ⟨h4, -⟩, rfl⟩, h5⟩ := h
  exact ⟨by show stmtStart t.item.token = true; rw [h1]; rfl, .stIf h1 h2
    (sub_expr hΓ ihe h3 h4 (by decide)) h4 (clause_ok (ih _ _ h5 (fun _ => o1 rfl) o2 o3)) (o1 rfl)⟩

theorem stmt_ifElse {e s s'} (hΓ : Γ.allowIn = true) (ihe : ExprOk C Γ e) (ih : StmtOk C Γ s)
    (ih' : StmtOk C Γ s') : StmtOk C Γ (.if e s (some s')) := by
  intro i o h o1 o2 o3
  simp only [stmt, sp_only, sp_cat, sp_cons, sp_nil, matches_p, matches_k] at h
  obtain ⟨h0, _, ⟨t, _, rfl, ⟨h1, -⟩, t', _, rfl, ⟨h2, -⟩, rfl⟩, _, h3, _,
    ⟨t'', _, rfl, ⟨h4, -⟩, rfl⟩, _, h5, _, ⟨t3, _, rfl, ⟨h6, -⟩, rfl⟩, h7⟩ := h
  refine ⟨by show stmtStart t.item.token = true; rw [h1]; rfl, .stIfElse h1 h2
    (sub_expr hΓ ihe h3 h4 (by decide)) h4 (clause_ok (ih _ _ h5 ?_ ?_ ?_)) h6
    (clause_ok (ih' _ _ h7 (by simpa only [openIf] using o1) o2 o3))⟩
  · intro hh; rw [hh] at h0; cases h0
  · show t3.item.token ≠ _; rw [h6]; decide
  · show t3.item.token ≠ _; rw [h6]; decide

theorem stmt_throw {e} (hΓ : Γ.allowIn = true) (ihe : ExprOk C Γ e) : StmtOk C Γ (.throw e) := by
  intro i o h _ _ _
  simp only [stmt, sp_cat, sp_cons, sp_nil, matches_p, matches_k] at h
  obtain ⟨_, ⟨t, _, rfl, ⟨h1, -⟩, rfl⟩, _, h2, t', _, rfl, ⟨h3, -⟩, rfl⟩ := h
  exact ⟨by show stmtStart t.item.token = true; rw [h1]; rfl,
    .stThrow h1 (sub_expr hΓ ihe h2 h3 (by decide)) (semi_ok h3)⟩

theorem stmt_while {e s} (hΓ : Γ.allowIn = true) (ihe : ExprOk C Γ e) (ih : StmtOk C Γ s) :
    StmtOk C Γ (.while e s) := by
  intro i o h o1 o2 o3
  simp only [stmt, sp_cat, sp_cons, sp_nil, matches_p, matches_k] at h
  obtain ⟨_, ⟨t, _, rfl, ⟨h1, -⟩, t', _, rfl, ⟨h2, -⟩, rfl⟩, _, h3, _,
    ⟨t'', _, rfl, ⟨h4, -⟩, rfl⟩, h5⟩ := h
  exact ⟨by show stmtStart t.item.token = true; rw [h1]; rfl, .stWhile h1 h2
    (sub_expr hΓ ihe h3 h4 (by decide)) h4 (ih _ _ h5 o1 o2 o3).2⟩

theorem stmt_doWhile {e s} (hΓ : Γ.allowIn = true) (ihe : ExprOk C Γ e) (ih : StmtOk C Γ s) :
    StmtOk C Γ (.doWhile e s) := by
  intro i o h o1 o2 o3
  simp only [stmt, sp_cat, sp_cons, sp_nil, matches_p, matches_k] at h
  obtain ⟨_, ⟨t, _, rfl, ⟨h1, -⟩, rfl⟩, _, h2, _, ⟨t', _, rfl, ⟨h3, -⟩, t'', _, rfl, ⟨h4, -⟩, rfl⟩, _, h5,
    t3, _, rfl, ⟨h6, -⟩, t4, _, rfl, ⟨h7, -⟩, rfl⟩ := h
  refine ⟨by show stmtStart t.item.token = true; rw [h1]; rfl, .stDoWhileSemi h1
    (ih _ _ h2 (fun _ => ?_) ?_ ?_).2 h3 h4 (sub_expr hΓ ihe h5 h6 (by decide)) h6 h7⟩ <;>
  · show t'.item.token ≠ _; rw [h3]; decide

theorem stmt_var {l} (hΓ : Γ.allowIn = true) (ih : VarDeclsOk C Γ l) : StmtOk C Γ (.var l) := by
  intro i o h _ _ _
  simp only [stmt, sp_only, sp_cat, sp_cons, sp_nil, matches_p, matches_k] at h
  obtain ⟨h0, _, ⟨t, _, rfl, ⟨h1, -⟩, rfl⟩, _, h2, t', _, rfl, ⟨h3, -⟩, rfl⟩ := h
  have := varDs_ok (s := false) (b := true) hΓ (.inl ⟨rfl, rfl⟩) ih (by simpa using h0) h2 (by
    show soft0 true t'.item.token = true; rw [h3]; decide) (fun _ => by
    show yieldStart t'.item.token = false; rw [h3]; decide)
  rw [within_true hΓ] at this
  exact ⟨by show stmtStart t.item.token = true; rw [h1]; rfl, .stVar h1 this (semi_ok h3)⟩

/-! ## `switch` and `try` -/

theorem cases_nil : CasesOk C Γ [] := by
  intro f i o h ho _
  simp only [cases, sp_nil] at h
  subst h
  exact ⟨.inl ho, .casesEnd ho⟩

theorem follow_case {t : Token} (h : t = .punct .closeBrace ∨ t = .keyword .default ∨
    t = .keyword .case) : Follow t := by
  rcases h with rfl | rfl | rfl
  · exact .inl rfl
  · exact .inr (.inr (.inr rfl))
  · exact .inr (.inr (.inl rfl))

theorem items_ok {l} {i o : List Tok} (ih : PartsOk C Γ l) (h : Sp C (parts Γ false l) i o)
    (ho : Follow (head o)) : Core C Γ (.items l) i o := by
  obtain ⟨ds, l', j, rfl, h1, -, h2, -⟩ := ih _ _ _ h ho
  obtain ⟨rfl, rfl⟩ := h1 rfl
  exact h2

theorem cases_default {l cs} (ihl : PartsOk C Γ l) (ih : CasesOk C Γ cs) :
    CasesOk C Γ (.mk none l :: cs) := by
  intro f i o h ho hf
  simp only [cases, sp_cat, sp_cons, sp_nil, matches_p, matches_k] at h
  obtain ⟨_, ⟨t, _, rfl, ⟨h1, -⟩, t', _, rfl, ⟨h2, -⟩, rfl⟩, j, h3, h4⟩ := h
  have hd : isDefault (.mk none l) = true := rfl
  simp only [List.filter_cons, hd, if_true, List.length_cons] at hf
  have hf' : f = false := by
    cases f
    · rfl
    · simp at hf
  subst hf'
  obtain ⟨h5, h6⟩ := ih true _ _ h4 ho (by simpa using hf)
  exact ⟨.inr (.inl h1), .casesMore (.caseDefault h1 h2 (items_ok ihl h3 (follow_case h5)) h5) rfl
    h6⟩

theorem cases_case {e l cs} (hΓ : Γ.allowIn = true) (ihe : ExprOk C Γ e) (ihl : PartsOk C Γ l)
    (ih : CasesOk C Γ cs) : CasesOk C Γ (.mk (some e) l :: cs) := by
  intro f i o h ho hf
  simp only [cases, sp_cat, sp_cons, sp_nil, matches_p, matches_k] at h
  obtain ⟨_, ⟨t, _, rfl, ⟨h1, -⟩, rfl⟩, _, he, _, ⟨t', _, rfl, ⟨h2, -⟩, rfl⟩, j, h3, h4⟩ := h
  have hd : isDefault (.mk (some e) l) = false := rfl
  simp only [List.filter_cons, hd] at hf
  obtain ⟨h5, h6⟩ := ih f _ _ h4 ho hf
  refine ⟨.inr (.inr h1), .casesMore (.case h1 (sub_expr hΓ ihe he h2 (by decide)) h2
    (items_ok ihl h3 (follow_case h5)) h5) rfl ?_⟩
  rw [hd, Bool.or_false]
  exact h6

theorem stmt_switch {e l} (hΓ : Γ.allowIn = true) (ihe : ExprOk C Γ e) (ih : CasesOk C Γ l) :
    StmtOk C Γ (.switch e l) := by
  intro i o h _ _ _
  simp only [stmt, sp_only, sp_cat, sp_cons, sp_nil, matches_p, matches_k] at h
  obtain ⟨h0, _, ⟨t, _, rfl, ⟨h1, -⟩, t', _, rfl, ⟨h2, -⟩, rfl⟩, _, h3, _,
    ⟨t'', _, rfl, ⟨h4, -⟩, t3, _, rfl, ⟨h5, -⟩, rfl⟩, _, h6, t4, _, rfl, ⟨h7, -⟩, rfl⟩ := h
  exact ⟨by show stmtStart t.item.token = true; rw [h1]; rfl, .stSwitch h1 h2
    (sub_expr hΓ ihe h3 h4 (by decide)) h4 h5
    (ih false _ _ h6 h7 (by simpa [oneDefault] using h0)).2 h7⟩

theorem handler_ok {x} {i o : List Tok} (hΓ : Γ.allowIn = true) (ih : HandlerOk C Γ x)
    (h : Sp C (handler Γ x) i o) (ho : head o ≠ .keyword .catch) :
    Core C Γ (.handler x) i o := by
  cases x with
  | none =>
    have := sp_nil.1 h
    subst this
    exact .handlerNone ho
  | some x =>
    obtain ⟨q, l⟩ := x
    cases q with
    | none =>
      simp only [handler, sp_cat, sp_cons, sp_nil, matches_p, matches_k] at h
      obtain ⟨_, ⟨t, _, rfl, ⟨h1, -⟩, t', _, rfl, ⟨h2, -⟩, rfl⟩, _, h3, t'', _, rfl, ⟨h4, -⟩, rfl⟩ := h
      refine .handler h1 (.catchNone ?_) (block_ok ih h2 h3 h4)
      show t'.item.token ≠ _; rw [h2]; decide
    | some q =>
      simp only [handler, sp_only, sp_cat, sp_cons, sp_nil, matches_p, matches_k] at h
      obtain ⟨_, ⟨t, _, rfl, ⟨h1, -⟩, t', _, rfl, ⟨h2, -⟩, rfl⟩, _, ⟨h3, h4⟩, _,
        ⟨t'', _, rfl, ⟨h5, -⟩, t3, _, rfl, ⟨h6, -⟩, rfl⟩, _, h7, t4, _, rfl, ⟨h8, -⟩, rfl⟩ := h
      have := (ih.1 _ _ h4).plain h3 true
      rw [within_true hΓ] at this
      exact .handler h1 (.catchParam h2 this h5) (block_ok ih.2 h6 h7 h8)

theorem finalizer_ok {x} {i o : List Tok} (ih : FinalizerOk C Γ x)
    (h : Sp C (finalizer Γ x) i o) (ho : head o ≠ .keyword .finally)
    (ho' : head o ≠ .keyword .catch) :
    head i ≠ .keyword .catch ∧ Core C Γ (.finalizer x) i o := by
  cases x with
  | none =>
    have := sp_nil.1 h
    subst this
    exact ⟨ho', .finalizerNone ho⟩
  | some l =>
    simp only [finalizer, sp_cat, sp_cons, sp_nil, matches_p, matches_k] at h
    obtain ⟨_, ⟨t, _, rfl, ⟨h1, -⟩, t', _, rfl, ⟨h2, -⟩, rfl⟩, _, h3, t'', _, rfl, ⟨h4, -⟩, rfl⟩ := h
    exact ⟨by show t.item.token ≠ _; rw [h1]; decide, .finalizer h1 (block_ok ih h2 h3 h4)⟩

theorem stmt_try {l x f} (hΓ : Γ.allowIn = true) (ihl : PartsOk C Γ l) (ihx : HandlerOk C Γ x)
    (ihf : FinalizerOk C Γ f) : StmtOk C Γ (.try l x f) := by
  intro i o h _ o2 o3
  simp only [stmt, sp_cat, sp_cons, sp_nil, matches_p, matches_k] at h
  obtain ⟨_, ⟨t, _, rfl, ⟨h1, -⟩, t', _, rfl, ⟨h2, -⟩, rfl⟩, _, h3, _, ⟨t'', _, rfl, ⟨h4, -⟩, rfl⟩, _, h5,
    h6⟩ := h
  obtain ⟨k1, k2⟩ := finalizer_ok ihf h6 o3 o2
  exact ⟨by show stmtStart t.item.token = true; rw [h1]; rfl,
    .stTry h1 (block_ok ihl h2 h3 h4) (handler_ok hΓ ihx h5 k1) k2⟩

/-! ## Loops -/

theorem optExpr_ok {x : Option Expr} {q : Punct} {t : Tok} {i o : List Tok}
    (hΓ : Γ.allowIn = true) (ih : OptOk C Γ x) (h : Sp C (optExpr Γ x) i (t :: o)) (ht : Is t q)
    (hq : stop0 true (.punct q) = true) (hq' : exprStart (.punct q) = false) :
    Core C Γ (.optExpr q x) i (t :: o) := by
  cases x with
  | none =>
    have := sp_nil.1 h
    subst this
    exact .optNone ht
  | some e => exact .optSome hq' (sub_expr hΓ ih h ht hq)

theorem kind_keyword {kind : VariableKind} {t : Tok} (h : Kw t (kindKeyword kind)) :
    Kw t .var ∧ kind = .var ∨ kind ≠ .var ∧ (Kw t .let ∧ kind = .let ∨ Kw t .const ∧ kind = .const) := by
  cases kind
  · exact .inl ⟨h, rfl⟩
  · exact .inr ⟨by simp, .inl ⟨h, rfl⟩⟩
  · exact .inr ⟨by simp, .inr ⟨h, rfl⟩⟩

theorem closed_assign {e f} {i o : List Tok} (h : W C Γ 20 f e i o)
    (hs : soft2 Γ.allowIn (head o) = true) : Core C Γ (.assign f e) i o :=
  .assign (h.single_soft (by omega) hs (.inl (h.other (by omega))))

theorem closed_head {e} {i o : List Tok} (h : W C Γ 20 (flags e) e i o) :
    head i ≠ .keyword .let ∧ head i ≠ .keyword .var ∧ head i ≠ .keyword .const := by
  have := h.front
  refine ⟨?_, ?_, ?_⟩ <;> intro hh <;> rw [hh] at this <;> exact absurd this (by decide)

theorem stmt_for {x a b s} (hΓ : Γ.allowIn = true) (ihx : InitOk C Γ x) (iha : OptOk C Γ a)
    (ihb : OptOk C Γ b) (ih : StmtOk C Γ s) : StmtOk C Γ (.for x a b s) := by
  intro i o h o1 o2 o3
  simp only [stmt, sp_cat, sp_cons, sp_nil, matches_p, matches_k] at h
  obtain ⟨_, ⟨t, _, rfl, ⟨h1, -⟩, t', _, rfl, ⟨h2, -⟩, rfl⟩, _, h3, _, ⟨u, _, rfl, ⟨h4, h4'⟩, rfl⟩, _, h5,
    _, ⟨u', _, rfl, ⟨h6, -⟩, rfl⟩, _, h7, _, ⟨u'', _, rfl, ⟨h8, -⟩, rfl⟩, h9⟩ := h
  have hc : ∀ x, Core C Γ (.forCont x (.for x a b s)) _ _ := fun x =>
    .forCont h4 (optExpr_ok hΓ iha h5 h6 (by decide) rfl) h6
      (optExpr_ok hΓ ihb h7 h8 (by decide) rfl) (.loopBody h8 (ih _ _ h9 o1 o2 o3).2)
  have hu : ∀ k, C.other t!"of" (u :: k) := fun k => show C.text u ≠ _ by rw [h4']; decide
  have hs : ∀ k, soft0 false (head (u :: k)) = true := fun k => by
    show soft0 false u.item.token = true; rw [h4]; decide
  refine ⟨by show stmtStart t.item.token = true; rw [h1]; rfl, .stFor (.forStmt h1 h2 ?_)⟩
  cases x with
  | none =>
    have := sp_nil.1 h3
    subst this
    exact .forSemi (hc _)
  | some x =>
    cases x with
    | «variable» kind l =>
      simp only [loopInit, sp_only, sp_cat, sp_cons, sp_nil, matches_k] at h3
      obtain ⟨g0, _, ⟨v, _, rfl, ⟨g1, -⟩, rfl⟩, g2⟩ := h3
      have hl : l ≠ [] := by simpa using g0
      rcases kind_keyword g1 with ⟨g1, rfl⟩ | ⟨g3, g1⟩
      · exact .forVar g1 (varDs_ok hΓ (.inr rfl) ihx hl g2 (hs _) (by simp)) (hu _) (hc _)
      · exact .forLex g1 (lexDs_ok hΓ (.inr rfl) ihx hl g3 g2 (hs _) (by simp)) (hu _) (hc _)
    | expr e =>
      simp only [loopInit] at h3
      have hw := sub_closed hΓ ihx h3 (by show u.item.token ≠ _; rw [h4]; decide) false
      obtain ⟨c1, c2, c3⟩ := closed_head hw
      exact .forExpr c1 (closed_assign hw (soft0_soft2 (hs _)).1) (hu _) (hc _) c2 c3

theorem varDecls_one {n kind f g d} {i o : List Tok} (hΓ : Γ.allowIn = true) (hn : n = 20)
    (ih : VarDeclOk C Γ d) (h : Sp C (varDecl Γ n kind f g d) i o)
    (ho : soft0 false (head o) = true)
    (hg : g = true → ∃ t o', o = t :: o' ∧ (Kw t .in ∨ C.text t = t!"of")) :
    (kind = .var → Core C (Γ.within false) (.varDs true f [d]) i o) ∧
    (kind ≠ .var → Core C (Γ.within false) (.lexDs kind f [d]) i o) :=
  ⟨fun hk => .varLast (varD_ok hΓ (.inr hn) ih hk h (soft0_soft2 ho).1 (by omega)) (soft0_soft2 ho).2,
    fun hk => .lexLast (lexD_ok hΓ (.inr hn) ih hk h (soft0_soft2 ho).1 (by omega) hg)
      (soft0_soft2 ho).2⟩

theorem stmt_forIn {x e s} (hΓ : Γ.allowIn = true) (ihx : LeftOk C Γ x) (ihe : ExprOk C Γ e)
    (ih : StmtOk C Γ s) : StmtOk C Γ (.forIn x e s) := by
  intro i o h o1 o2 o3
  simp only [stmt, sp_cat, sp_cons, sp_nil, matches_p, matches_k] at h
  obtain ⟨_, ⟨t, _, rfl, ⟨h1, -⟩, t', _, rfl, ⟨h2, -⟩, rfl⟩, _, h3, _, ⟨u, _, rfl, ⟨h4, -⟩, rfl⟩, _, h5,
    _, ⟨u', _, rfl, ⟨h6, -⟩, rfl⟩, h7⟩ := h
  have hc : Core C Γ (.forIn x (.forIn x e s)) _ _ :=
    .forIn h4 (sub_expr hΓ ihe h5 h6 (by decide)) (.loopBody h6 (ih _ _ h7 o1 o2 o3).2)
  have hs : ∀ k, soft0 false (head (u :: k)) = true := fun k => by
    show soft0 false u.item.token = true; rw [h4]; decide
  refine ⟨by show stmtStart t.item.token = true; rw [h1]; rfl, .stFor (.forStmt h1 h2 ?_)⟩
  cases x with
  | «variable» kind d =>
    simp only [loopLeft, sp_only, sp_cat, sp_cons, sp_nil, matches_k] at h3
    obtain ⟨g0, _, ⟨v, _, rfl, ⟨g1, -⟩, rfl⟩, g2⟩ := h3
    obtain ⟨d1, d2⟩ := varDecls_one hΓ rfl ihx g2 (hs _) (fun _ => ⟨u, _, rfl, .inl h4⟩)
    rcases kind_keyword g1 with ⟨g1, rfl⟩ | ⟨g3, g1⟩
    · exact .forVarIn g1 (d1 rfl) hc
    · exact .forLexIn g1 (d2 g3) (by simpa [g3] using g0) hc
  | expr e =>
    simp only [loopLeft] at h3
    have hw := sub_closed hΓ ihx h3 (by show u.item.token ≠ _; rw [h4]; decide) false
    obtain ⟨c1, c2, c3⟩ := closed_head hw
    exact .forExprIn c1 (closed_assign hw (soft0_soft2 (hs _)).1) hc c2 c3

theorem wordToken_of : wordToken t!"of" = .ident := by decide

theorem stmt_forOf {x e s a} (hΓ : Γ.allowIn = true) (ihx : LeftOk C Γ x) (ihe : ExprOk C Γ e)
    (ih : StmtOk C Γ s) : StmtOk C Γ (.forOf x e s a) := by
  intro i o h o1 o2 o3
  simp only [stmt, sp_cat, sp_cons, sp_nil, matches_p, matches_word, wordToken_of] at h
  obtain ⟨j, h0, _, h3, _, ⟨u, _, rfl, ⟨h4, h4'⟩, rfl⟩, _, h5, _, ⟨u', _, rfl, ⟨h6, -⟩, rfl⟩, h7⟩ := h
  have hc : Core C Γ (.forOf false a x (.forOf x e s a)) _ _ :=
    .forOf h4' (by rw [h4]; decide) (sub_single hΓ ihe h5 (by
      show stop2 true u'.item.token = true; rw [h6]; decide)) (.loopBody h6 (ih _ _ h7 o1 o2 o3).2)
  have hs : ∀ k, soft0 false (head (u :: k)) = true := fun k => by
    show soft0 false u.item.token = true; rw [h4]; decide
  have hh : Core C Γ (.forHead false a (.forOf x e s a)) j o := by
    cases x with
    | «variable» kind d =>
      simp only [loopLeft, sp_only, sp_cat, sp_cons, sp_nil, matches_k] at h3
      obtain ⟨g0, _, ⟨v, _, rfl, ⟨g1, -⟩, rfl⟩, g2⟩ := h3
      obtain ⟨d1, d2⟩ := varDecls_one hΓ rfl ihx g2 (hs _) (fun _ => ⟨u, _, rfl, .inr h4'⟩)
      rcases kind_keyword g1 with ⟨g1, rfl⟩ | ⟨g3, g1⟩
      · exact .forVarOf nofun g1 (d1 rfl) hc
      · exact .forLexOf nofun g1 (d2 g3) (by simpa [g3] using g0) hc
    | expr e =>
      simp only [loopLeft] at h3
      have hw := sub_closed hΓ ihx h3 (by show u.item.token ≠ _; rw [h4]; decide) false
      obtain ⟨c1, c2, c3⟩ := closed_head hw
      exact .forExprOf nofun c1 (closed_assign hw (soft0_soft2 (hs _)).1) hc c2 c3
  cases a with
  | false =>
    simp only [Bool.false_eq_true, if_false, sp_cons, sp_nil, matches_p, matches_k] at h0
    obtain ⟨t, _, rfl, ⟨h1, -⟩, t', _, rfl, ⟨h2, -⟩, rfl⟩ := h0
    exact ⟨by show stmtStart t.item.token = true; rw [h1]; rfl, .stFor (.forStmt h1 h2 hh)⟩
  | true =>
    simp only [if_true, sp_cons, sp_nil, matches_p, matches_k] at h0
    obtain ⟨t, _, rfl, ⟨h1, -⟩, t', _, rfl, ⟨h2, -⟩, t'', _, rfl, ⟨h8, -⟩, rfl⟩ := h0
    exact ⟨by show stmtStart t.item.token = true; rw [h1]; rfl, .stFor (.forAwait h1 h2 h8 hh)⟩

end Ressa.Print
