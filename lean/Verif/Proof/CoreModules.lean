import Verif.Proof.CoreMeans
import Verif.Proof.CoreStmts
import Verif.Props.Context

/-!
# Modules, statement lists and programs

One theorem for each rule of `Core`.
-/

namespace Ressa.Gr

variable {C : Cfg}

set_option linter.unusedVariables false

theorem Exec.ignoreNext {Γ f t i f' o} {β : Type} {k : Unit → P β} {b}
    (hk : Exec C Γ f i (k ()) b f' o) : Exec C Γ f (t :: i) (P.ignoreErr nextItem >>= k) b f' o := by
  intro s hs
  obtain ⟨s1, h1, h2, h3⟩ := hs.next
  obtain ⟨s', h4, h5, h6⟩ := hk s1 h2
  refine ⟨s', by rw [bind_def, P.ignoreErr, h1]; exact h4, h5, ?_⟩
  simp only [List.length_cons]
  omega

theorem partStep {Γ i j o s acc p l} (hs : Stand C Γ .none i s) (he : head i ≠ .eof)
    (hp : ∃ s', nextPart s = .ok p s' ∧ Stand C Γ .none j s' ∧
      mu s' + i.length ≤ mu s + j.length) (hl : j.length < i.length)
    (hk : ∀ s', nextPart s = .ok p s' → Stand C Γ .none j s' →
      ∃ s'', partLoop (acc ++ [p]) s' = .ok ((acc ++ [p]) ++ l) s'' ∧ Stand C Γ .none o s'' ∧
        mu s'' + j.length ≤ mu s' + o.length) :
    ∃ s'', partLoop acc s = .ok (acc ++ p :: l) s'' ∧ Stand C Γ .none o s'' ∧
      mu s'' + i.length ≤ mu s + o.length := by
  obtain ⟨s2, h4, h5, h6⟩ := hp
  obtain ⟨s3, h7, h8, h9⟩ := hk s2 h4 h5
  refine ⟨s3, ?_, h8, by omega⟩
  have hi : (Ressa.lookIs (·.isEof)) s = .ok false s := by
    simp only [Ressa.lookIs, P.get, hs.at_.head]
    cases h : head i <;> simp_all [Token.isEof]
  have h10 : ∀ T B, loopN (mu s2 + 1) T B (acc ++ [p]) s2 = .ok (acc ++ [p] ++ l) s3 →
      loopN (mu s) T B (acc ++ [p]) s2 = .ok (acc ++ p :: l) s3 := by
    intro T B h
    have e : mu s = mu s2 + 1 + (mu s - (mu s2 + 1)) := by omega
    rw [e, loopN_mono] <;> rw [h]
    · simp
    · exact nofun
  have ht : (do if ← Ressa.lookIs (·.isEof) then pure (some acc) else pure none :
      P (Option (List ProgramPart))) s = .ok none s := by
    simp only [bind_def, hi]
    rfl
  have hb : (do
      let r ← (do return acc ++ [← nextPart] : P (List ProgramPart))
      pure (.inl r) : P (List ProgramPart ⊕ List ProgramPart)) s = .ok (.inl (acc ++ [p])) s2 := by
    simp only [bind_def, h4]
    rfl
  simp only [partLoop, untilP, loopP] at h7 ⊢
  simp only [loopN, bind_def] at ht ⊢
  simp only [ht]
  rw [bind_def, hb]
  exact h10 _ _ h7

theorem nextPart_item {s} (h : s.ctx.pastProlog = true ∨ s.look.token ≠ .string) :
    nextPart s = (do
      P.modC fun c => { c with pastProlog := true }
      full.listItem : P ProgramPart) s := by
  unfold Ressa.nextPart
  simp only [readC, lookIs, get_and, get_bind]
  rw [ite_run, if_neg]
  rcases h with h | h
  · simp [h]
  · cases hq : s.look.token <;> simp_all [Token.isString]

theorem nextPart_dir {s} (h : s.ctx.pastProlog = false) (h' : s.look.token = .string) :
    nextPart s = (do
      let part ← directive full
      P.modC fun c => { c with pastProlog := !isDir part }
      pure part : P ProgramPart) s := by
  unfold Ressa.nextPart
  simp only [readC, lookIs, get_and, get_bind]
  rw [ite_run, if_pos]
  simp [h, h', Token.isString]

theorem Means.importSpec {Γ n i o} (h1 : Ok C Γ (.ident n) i o) (h2 : C.other t!"as" o) :
    Means C Γ (.importSpec (.normal n none)) i o := by
  obtain ⟨u, j, rfl, hu⟩ := other_split h2
  fw

theorem Means.importAs {Γ n n' t i j o} (h1 : Ok C Γ (.ident n) i (t :: j))
    (h2 : C.text t = t!"as") (h3 : Ok C Γ (.ident n') j o) :
    Means C Γ (.importSpec (.normal n (some n'))) i o := by
  fw
  apply Exec.ignoreNext
  ex

theorem Means.importName {Γ t o} (h1 : t.item.token ≠ .ident)
    (h2 : t.item.token ≠ .punct .closeBrace) (h3 : C.other t!"as" o) :
    Means C Γ (.importSpec (.normal (C.text t) none)) (t :: o) o := by
  obtain ⟨u, j, rfl, hu⟩ := other_split h3
  fw

/-- The tokens of default imports. -/
theorem importable_cases {t : Token} (h : importable t = true) :
    t = .ident ∨ (∃ b, t = .boolean b) ∨ t = .null ∨ ∃ k, t = .keyword k ∧ k ≠ .default := by
  cases t <;> simp_all [importable, Token.isIdent, Token.isKeyword, Token.isBool, Token.isNull]

theorem Means.importNameAs {Γ n' t t' j o} (h1 : t.item.token ≠ .ident)
    (h2 : t.item.token ≠ .punct .closeBrace) (h3 : C.text t' = t!"as")
    (h4 : Ok C Γ (.ident n') j o) :
    Means C Γ (.importSpec (.normal (C.text t) (some n'))) (t :: t' :: j) o := by fw

theorem Means.importSeqEnd {Γ o} (h1 : head o = .punct .closeBrace) :
    Means C Γ (.importSeq []) o o := by
  pre
  halt

theorem Means.importSeqMore {Γ p l t i j o} (h1 : Ok C Γ (.importSpec p) i (t :: j))
    (h2 : Is t .comma) (h3 : Ok C Γ (.importSeq l) j o) :
    Means C Γ (.importSeq (p :: l)) i o := by
  pre
  more

theorem Means.importSeqLast {Γ p i o} (h1 : Ok C Γ (.importSpec p) i o)
    (h2 : head o = .punct .closeBrace) :
    Means C Γ (.importSeq [p]) i o := by
  pre
  more
  halt

theorem Means.named {Γ t t' l i o} (h1 : Is t .openBrace)
    (h2 : Ok C Γ (.importSeq l) i (t' :: o)) (h3 : Is t' .closeBrace) :
    Means C Γ (.named l) (t :: i) o := by fw

theorem Means.nsImport {Γ t t' t'' o} (h1 : Is t .asterisk) (h2 : C.text t' = t!"as") :
    Means C Γ (.nsImport (.namespace (C.text t''))) (t :: t' :: t'' :: o) o := by fw

theorem Means.importsNamed {Γ l i o} (h1 : Ok C Γ (.named l) i o) :
    Means C Γ (.imports l) i o := by fw

theorem Means.importsNs {Γ s i o} (h1 : Ok C Γ (.nsImport s) i o) :
    Means C Γ (.imports [s]) i o := by fw

theorem Means.importsDefault {Γ t o} (h1 : importable t.item.token = true) (h2 : head o ≠ .punct .comma) :
    Means C Γ (.imports [.default (C.text t)]) (t :: o) o := by
  rcases importable_cases h1 with h1 | ⟨b, h1⟩ | h1 | ⟨k, h1, hk⟩ <;> fw

theorem Means.importsDefaultNs {Γ s t t' j o} (h1 : importable t.item.token = true) (h2 : Is t' .comma)
    (h3 : Ok C Γ (.nsImport s) j o) :
    Means C Γ (.imports [.default (C.text t), s]) (t :: t' :: j) o := by
  rcases importable_cases h1 with h1 | ⟨b, h1⟩ | h1 | ⟨k, h1, hk⟩ <;> fw

theorem Means.importsDefaultNamed {Γ l t t' j o} (h1 : importable t.item.token = true) (h2 : Is t' .comma)
    (h3 : Ok C Γ (.named l) j o) :
    Means C Γ (.imports (.default (C.text t) :: l)) (t :: t' :: j) o := by
  rcases importable_cases h1 with h1 | ⟨b, h1⟩ | h1 | ⟨k, h1, hk⟩ <;> fw

theorem Means.importBare {Γ t t' i o} (h1 : Kw t .import) (h2 : t'.item.token = .string)
    (h3 : Ok C Γ .semi i o) :
    Means C Γ (.importDecl ⟨[], C.text t'⟩) (t :: t' :: i) o := by fw

theorem Means.importFrom {Γ t t' t'' l i j o} (h1 : Kw t .import)
    (h2 : Ok C Γ (.imports l) i (t' :: t'' :: j)) (h3 : C.text t' = t!"from")
    (h4 : t''.item.token = .string) (h5 : Ok C Γ .semi j o) :
    Means C Γ (.importDecl ⟨l, C.text t''⟩) (t :: i) o := by
  rcases h2.start with h | h | h
  · rcases importable_cases h with h | ⟨b, h⟩ | h | ⟨k, h, hk⟩ <;> fw
  · fw
  · fw

theorem Means.exportSpec {Γ t o} (h1 : t.item.token ≠ .punct .closeBrace) (h2 : C.other t!"as" o) :
    Means C Γ (.exportSpec (t.item.token.matchesKeyword .default) ⟨C.text t, none⟩) (t :: o) o := by
  obtain ⟨u, j, rfl, hu⟩ := other_split h2
  refine ⟨rfl, ?_⟩
  intro f
  ex

theorem Means.exportAs {Γ t t' t'' o} (h1 : t.item.token ≠ .punct .closeBrace)
    (h2 : C.text t' = t!"as") :
    Means C Γ (.exportSpec (t.item.token.matchesKeyword .default) ⟨C.text t, some (C.text t'')⟩) (t
    :: t' :: t'' :: o) o := by
  refine ⟨rfl, ?_⟩
  intro f
  ex

theorem Means.exportSeqEnd {Γ o} (h1 : head o = .punct .closeBrace) :
    Means C Γ (.exportSeq false []) o o := by
  pre
  halt

theorem Means.exportSeqMore {Γ d d' p l t i j o} (h1 : Ok C Γ (.exportSpec d p) i (t :: j))
    (h2 : Is t .comma) (h3 : Ok C Γ (.exportSeq d' l) j o) :
    Means C Γ (.exportSeq (d || d') (p :: l)) i o := by
  pre
  more
  refine (h3.means _ _).result ?_ rfl rfl
  simp [Bool.or_assoc]

theorem Means.exportSeqLast {Γ d p i o} (h1 : Ok C Γ (.exportSpec d p) i o)
    (h2 : head o = .punct .closeBrace) :
    Means C Γ (.exportSeq d [p]) i o := by
  pre
  more
  halt

theorem Means.exportDefaultFn {Γ t t' f i o} (h1 : Kw t .export) (h2 : Kw t' .default)
    (h3 : Ok C Γ (.fnDecl true f) i o) :
    Means C Γ (.exportDecl (.defaultDecl (.function f))) (t :: t' :: i) o := by
  rcases h3.start with h | ⟨u, u', j, rfl, hu, ha, hf, hj⟩ <;> fw

theorem Means.exportDefaultClass {Γ t t' c i o} (h1 : Kw t .export) (h2 : Kw t' .default)
    (h3 : Ok C Γ (.cls true c) i o) :
    Means C Γ (.exportDecl (.defaultDecl (.class c))) (t :: t' :: i) o := by fw

theorem Means.exportDefaultObject {Γ t t' t'' t3 f l i o} (h1 : Kw t .export)
    (h2 : Kw t' .default) (h3 : Is t'' .openBrace) (h4 : C.text t'' ≠ t!"async")
    (h5 : Ok C Γ (.props (true, true) l f) i (t3 :: o)) (h6 : Is t3 .closeBrace)
    (h7 : (l.filter isProtoInit).length ≤ 1 ∨ C.tolerant = true) :
    Means C Γ (.exportDecl (.defaultExpr (.object l))) (t :: t' :: t'' :: i) o := by
  have h8 := h5.means (false, []) (by simpa using h7)
  fw

theorem Means.exportDefaultArray {Γ t t' t'' t3 f l i o} (h1 : Kw t .export)
    (h2 : Kw t' .default) (h3 : Is t'' .openBracket) (h4 : C.text t'' ≠ t!"async")
    (h5 : Ok C Γ (.elems f l) i (t3 :: o)) (h6 : Is t3 .closeBracket) :
    Means C Γ (.exportDecl (.defaultExpr (.array l))) (t :: t' :: t'' :: i) o := by fw

theorem Means.exportDefaultExpr {Γ t t' f e i o} (h1 : Kw t .export) (h2 : Kw t' .default)
    (h3 : C.noAsyncFn i) (h4 : head i ≠ .keyword .function) (h5 : head i ≠ .keyword .class)
    (h6 : head i ≠ .punct .openBrace) (h7 : head i ≠ .punct .openBracket)
    (h8 : Ok C Γ (.assign f e) i o) :
    Means C Γ (.exportDecl (.defaultExpr e)) (t :: t' :: i) o := by
  obtain ⟨u, j, rfl, hu⟩ := noAsyncFn_split h3
  by_cases ha : C.text u = t!"async"
  · have hf := hu.resolve_left (by simp [ha])
    fw
  · fw

theorem Means.exportAll {Γ t t' t'' t3 i o} (h1 : Kw t .export) (h2 : Is t' .asterisk)
    (h3 : t3.item.token = .string) (h4 : Ok C Γ .semi i o) :
    Means C Γ (.exportDecl (.all (C.text t3))) (t :: t' :: t'' :: t3 :: i) o := by fw

theorem Means.exportLexical {Γ t d i j o} (h1 : Kw t .export) (h2 : Ok C Γ (.lexical d) i j)
    (h3 : Ok C Γ .semi j o) :
    Means C Γ (.exportDecl (.namedDecl d)) (t :: i) o := by
  obtain ⟨u, j, rfl, hu | hu, -⟩ := h2.start <;> (have h3' := h3.means; have h2' := h2.means; simp only [Means] at h2' h3' ⊢; apply Exec.to_bot; ex)

theorem Means.exportVar {Γ t t' l i j o} (h1 : Kw t .export) (h2 : Kw t' .var)
    (h3 : Ok C Γ (.varDs true false l) i j) (h4 : Ok C Γ .semi j o) :
    Means C Γ (.exportDecl (.namedDecl (.variable .var l))) (t :: t' :: i) o := by
  have hr := CommaSep.run h3.means
  fw

theorem Means.exportClass {Γ t c i o} (h1 : Kw t .export) (h2 : Ok C Γ (.cls true c) i o) :
    Means C Γ (.exportDecl (.namedDecl (.class c))) (t :: i) o := by fw

theorem Means.exportFn {Γ t f i o} (h1 : Kw t .export) (h0 : head i = .keyword .function)
    (h2 : Ok C Γ (.fnDecl true f) i o) :
    Means C Γ (.exportDecl (.namedDecl (.function f))) (t :: i) o := by fw

theorem Means.exportAsync {Γ t f i o} (h1 : Kw t .export) (h0 : head i = .ident)
    (h2 : Ok C Γ (.fnDecl false f) i o) :
    Means C Γ (.exportDecl (.namedDecl (.function f))) (t :: i) o := by
  rcases h2.start with h | ⟨u, u', j, rfl, hu, ha, hf, hj⟩
  · rw [h] at h0; cases h0
  · fw

theorem Means.exportNamed {Γ t t' t'' l i j o} (h1 : Kw t .export) (h2 : Is t' .openBrace)
    (h3 : C.text t' ≠ t!"async") (h4 : Ok C Γ (.exportSeq false l) i (t'' :: j))
    (h5 : Is t'' .closeBrace) (h6 : C.other t!"from" j) (h7 : Ok C Γ .semi j o) :
    Means C Γ (.exportDecl (.namedSpecifier l none)) (t :: t' :: i) o := by
  obtain ⟨u, j, rfl, hu⟩ := other_split h6
  fw

theorem Means.exportFrom {Γ t t' t'' t3 t4 d l i j o} (h1 : Kw t .export) (h2 : Is t' .openBrace)
    (h3 : C.text t' ≠ t!"async") (h4 : Ok C Γ (.exportSeq d l) i (t'' :: t3 :: t4 :: j))
    (h5 : Is t'' .closeBrace) (h6 : C.text t3 = t!"from") (h7 : t4.item.token = .string)
    (h8 : Ok C Γ .semi j o) :
    Means C Γ (.exportDecl (.namedSpecifier l (some (C.text t4)))) (t :: t' :: i) o := by fw

theorem Means.itemStmt {Γ s i o} (h1 : itemIsStmt (head i) = true) (h2 : Ok C Γ (.stmt s) i o) :
    Means C Γ (.listItem (.stmt s)) i o := by
  have hE : ∀ f, Exec C Γ f i (stmtPart full) (.stmt s) .none o := by
    have h := h2.means
    simp only [Means] at h
    intro f
    apply Exec.to_bot
    ex
  simp only [Means]
  intro f
  unfold statementListItem
  apply Exec.modBoth
  apply Exec.lookTok
  cases ht : head i
  case keyword k => cases k <;> first | exact hE _ | (rw [ht] at h1; cases h1)
  all_goals exact hE _

theorem Means.itemFor {Γ s i o} (h1 : Ok C Γ (.forStmt true s) i o) :
    Means C Γ (.listItem (.stmt s)) i o := by
  have hE : Exec C Γ .all i (stmtPart full) (.stmt s) .none o := by
    have h := h1.means Flags.all (fun _ => .inl rfl)
    ex
  have hs : head i = .keyword .for := h1.start
  simp only [Means]
  intro f
  unfold statementListItem
  apply Exec.modBoth
  apply Exec.lookTok
  rw [hs]
  exact hE

theorem Means.itemImport {Γ d i o} (h1 : Ok C Γ (.importDecl d) i o) :
    Means C Γ (.listItem (.decl (.import d))) i o := by
  obtain ⟨u, j, rfl, hu, hn⟩ := h1.start
  have h := h1.means
  simp only [Means] at h ⊢
  intro f
  apply Exec.to_bot
  unfold statementListItem
  apply Exec.modBoth
  apply Exec.lookTok
  rw [head_cons, hu]
  ex

theorem Means.itemImportCall {Γ s t i o} (h1 : Kw t .import) (h2 : head i = .punct .openParen)
    (h3 : Ok C Γ (.stmt s) (t :: i) o) :
    Means C Γ (.listItem (.stmt s)) (t :: i) o := by
  have hE : ∀ f, Exec C Γ f (t :: i) (stmtPart full) (.stmt s) .none o := by
    have h := h3.means
    simp only [Means] at h
    intro f
    apply Exec.to_bot
    ex
  simp only [Means]
  intro f
  apply Exec.to_bot
  unfold statementListItem
  apply Exec.modBoth
  apply Exec.lookTok
  rw [head_cons, h1]
  ex

theorem Means.itemLet {Γ s t i o} (h1 : Kw t .let) (h2 : letDecl (head i) = false)
    (h3 : Ok C Γ (.stmt s) (t :: i) o) :
    Means C Γ (.listItem (.stmt s)) (t :: i) o := by
  have hE : ∀ f, Exec C Γ f (t :: i) (stmtPart full) (.stmt s) .none o := by
    have h := h3.means
    simp only [Means] at h
    intro f
    apply Exec.to_bot
    ex
  have h4 : ((head i).isIdent || (head i).matchesPunct .openBracket ||
      (head i).matchesPunct .openBrace || (head i).matchesKeyword .let ||
      (head i).matchesKeyword .yield) = false := by
    cases hi : head i <;>
      simp_all [letDecl, Token.isIdent, Token.matchesPunct, Token.matchesKeyword]
  simp only [Means]
  intro f
  apply Exec.to_bot
  unfold statementListItem
  apply Exec.modBoth
  apply Exec.lookTok
  rw [head_cons, h1]
  apply Exec.atLexicalDecl
  rw [h4]
  exact hE _

theorem Means.itemExport {Γ d i o} (h1 : Ok C Γ (.exportDecl d) i o) :
    Means C Γ (.listItem (.decl (.export d))) i o := by fw

theorem Means.itemLexical {Γ d i o} (h1 : Ok C Γ (.lexical d) i o) :
    Means C Γ (.listItem (.decl d)) i o := by
  obtain ⟨u, j, rfl, hu, hn⟩ := h1.start
  have h := h1.means
  simp only [Means] at h ⊢
  intro f
  rcases hu with hu | hu
  · apply Exec.to_bot
    unfold statementListItem
    apply Exec.modBoth
    apply Exec.lookTok
    rw [head_cons, hu]
    have hn : head j = .ident ∨ head j = .punct .openBracket ∨ head j = .punct .openBrace := by
      cases hj : head j <;> simp_all [patStart, lexStart]
    rcases hn with hn | hn | hn <;> ex
  · apply Exec.to_bot
    unfold statementListItem
    apply Exec.modBoth
    apply Exec.lookTok
    rw [head_cons, hu]
    ex

theorem Means.itemFunction {Γ f i o} (h0 : head i = .keyword .function)
    (h1 : Ok C Γ (.fnDecl true f) i o) :
    Means C Γ (.listItem (.decl (.function f))) i o := by fw

theorem Means.itemClass {Γ c i o} (h1 : Ok C Γ (.cls false c) i o) :
    Means C Γ (.listItem (.decl (.class c))) i o := by fw

theorem Means.partsEnd {Γ past o} (h1 : head o = .eof) :
    Means C Γ (.parts past []) o o := by
  intro s acc hs _
  exact (by halt : Exec C Γ .none o (partLoop acc) acc .none o).result (by simp) rfl rfl s hs

theorem Means.partsItem {Γ past p l i j o} (h1 : past = true ∨ head i ≠ .string)
    (h2 : Ok C Γ (.listItem p) i j) (h3 : Ok C Γ (.parts true l) j o) :
    Means C Γ (.parts past (p :: l)) i o := by
  intro s acc hs hp
  have hd := h2.start.2.1
  have hm := h2.means
  have hl := h2.length
  simp only [Means] at hm
  have hx : Exec C Γ .none i (do
      P.modC fun c => { c with pastProlog := true }
      full.listItem : P ProgramPart) p .none j := by
    apply Exec.to_bot
    ex
  obtain ⟨s', e, h'⟩ := hx s hs
  rw [← nextPart_item (by rw [hs.at_.head, hp]; exact h1)] at e
  refine partStep hs hd ⟨s', e, h'⟩ (by len) fun s' e hs' => h3.means s' _ hs' ?_
  rw [(FrameJ.nextPart e).2, hs.at_.head, hp]
  rcases h1 with rfl | h1
  · rfl
  · cases hq : head i <;> simp_all [Token.isString]

theorem Means.partsDir {Γ s l i j k o} (h1 : head i = .string)
    (h2 : Ok C Γ (.expression (.literal (.string s))) i j) (h3 : s ≠ t!"use strict")
    (h4 : Ok C Γ .semi j k) (h5 : Ok C Γ (.parts false l) k o) :
    Means C Γ (.parts false (.dir s (trimQuotes s) :: l)) i o := by
  intro s' acc hs hp
  have hm := h2.means
  have hm' := h4.means
  have hl := h2.length
  have hl' := h4.length
  simp only [Means] at hm hm'
  have hx : Exec C Γ .none i (do
      let part ← directive full
      P.modC fun c => { c with pastProlog := !isDir part }
      pure part : P ProgramPart) (.dir s (trimQuotes s)) .none k := by
    apply Exec.to_bot
    ex
  obtain ⟨s', e, h'⟩ := hx _ hs
  rw [← nextPart_dir hp (by rw [hs.at_.head, h1])] at e
  refine partStep hs (by simp [h1]) ⟨s', e, h'⟩ (by len) fun s' e hs' => h5.means s' _ hs' ?_
  rw [(FrameJ.nextPart e).2, hs.at_.head, hp, h1]
  rfl

theorem Means.partsExpr {Γ e l i j k o} (h1 : head i = .string) (h2 : Ok C Γ (.expression e) i j)
    (h3 : (∀ l, e ≠ .literal l)) (h4 : (∀ es qs, e ≠ .template es qs)) (h5 : Ok C Γ .semi j k)
    (h6 : Ok C Γ (.parts true l) k o) :
    Means C Γ (.parts false (.stmt (.expr e) :: l)) i o := by
  intro s' acc hs hp
  have hm := h2.means
  have hm' := h5.means
  have hl := h2.length
  have hl' := h5.length
  simp only [Means] at hm hm'
  have hx : Exec C Γ .none i (do
      let part ← directive full
      P.modC fun c => { c with pastProlog := !isDir part }
      pure part : P ProgramPart) (.stmt (.expr e)) .none k := by
    apply Exec.to_bot
    cases e <;> first | exact absurd rfl (h3 _) | exact absurd rfl (h4 _ _) | ex
  obtain ⟨s', e, h'⟩ := hx _ hs
  rw [← nextPart_dir hp (by rw [hs.at_.head, h1])] at e
  refine partStep hs (by simp [h1]) ⟨s', e, h'⟩ (by len) fun s' e hs' => h6.means s' _ hs' ?_
  rw [(FrameJ.nextPart e).2, hs.at_.head, hp, h1]
  rfl

end Ressa.Gr
