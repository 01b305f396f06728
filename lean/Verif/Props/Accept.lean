import Verif.Proof.CoreRun

/-!
# Programs that are accepted (C39)

`Core` (`Verif.Spec.Core`) describes programs by rules that read from left to right and say of each
phrase what may follow it.
-/

namespace Ressa

open Gr

variable {L : Lexer} {b : Builder} {ps : List ProgramPart} {o : List Tok}

/-- The parser accepts every program of the grammar `Core` and returns its tree. -/
theorem core_accepted (hok : ScannerOk b.js (L.scan b.js))
    (h : Core (cfgOf L b) Env.top (.parts false ps) (visible L b) o) :
    ∃ s s', b.build L = .ok () s ∧
      parse s = .ok (if b.isModule then .mod ps else .script ps) s' := by
  obtain ⟨s, hs, -⟩ := build_reading (b := b) hok
  obtain ⟨s', h1, h2, -⟩ := h.means s [] (Stand.of_build hok hs) (build_prolog hs)
  refine ⟨s, s', hs, ?_⟩
  unfold parse
  rw [bind_def, show untilP (lookIs (·.isEof)) (fun acc => do return acc ++ [← nextPart]) [] s =
    .ok ([] ++ ps) s' from h1]
  simp only [List.nil_append]
  rw [bind_def]
  have hm : s'.isModule = b.isModule := congrArg Cfg.isModule h2.at_.cfg
  simp only [readModule, P.get, hm]
  split <;> rfl

/-- A text has at most one tree in the grammar. -/
theorem core_unique {ps' : List ProgramPart} {o' : List Tok} (hok : ScannerOk b.js (L.scan b.js))
    (h : Core (cfgOf L b) Env.top (.parts false ps) (visible L b) o)
    (h' : Core (cfgOf L b) Env.top (.parts false ps') (visible L b) o') : ps = ps' := by
  obtain ⟨s, s1, hs, h1⟩ := core_accepted hok h
  obtain ⟨s', s2, hs', h2⟩ := core_accepted hok h'
  rw [hs] at hs'
  cases hs'
  rw [h1] at h2
  cases hm : b.isModule <;> simp [hm] at h2 <;> exact h2.1

/-- The parser accepts an expression of the grammar `Core` at the start of the text, whatever
follows it, and returns its tree. -/
theorem core_expression {e : Expr} (hok : ScannerOk b.js (L.scan b.js))
    (h : Core (cfgOf L b) Env.top (.expression e) (visible L b) o) :
    ∃ s s', b.build L = .ok () s ∧ full.expression s = .ok e s' := by
  obtain ⟨s, hs, -⟩ := build_reading (b := b) hok
  have hm := h.means
  simp only [Means] at hm
  obtain ⟨s', h1, -⟩ := hm _ s (Stand.of_build hok hs)
  exact ⟨s, s', hs, by rw [full_expression]; exact h1⟩

/-! ## C39 on `var x = a + 1; if (a) x = 1` -/

namespace Demo

/-- `var x = a + 1; if (a) x = 1`. -/
def ifProgram : List Piece :=
  [k .var, id t!"x", p .assign t!"=", id t!"a", p .plus t!"+", n t!"1", p .semiColon t!";",
    k .if, p .openParen t!"(", id t!"a", p .closeParen t!")", id t!"x", p .assign t!"=", n t!"1"]

/-- Its items. -/
def ifItems : List Tok :=
  [⟨false, .keyword .var, 1, 4⟩, ⟨false, .ident, 5, 6⟩, ⟨false, .punct .assign, 7, 8⟩,
    ⟨false, .ident, 9, 10⟩, ⟨false, .punct .plus, 11, 12⟩, ⟨false, .numeric, 13, 14⟩,
    ⟨false, .punct .semiColon, 15, 16⟩, ⟨false, .keyword .if, 17, 19⟩, ⟨false, .punct
    .openParen, 20, 21⟩, ⟨false, .ident, 22, 23⟩, ⟨false, .punct .closeParen, 24, 25⟩,
    ⟨false, .ident, 26, 27⟩, ⟨false, .punct .assign, 28, 29⟩, ⟨false, .numeric, 30, 31⟩,
    ⟨false, .eof, 31, 31⟩]

example : visible (lexer ifProgram) (builder ifProgram) = ifItems := by kernel_rfl

/-- From a primary expression to an operand of the binary operators. -/
macro "up" : tactic => `(tactic| (
  refine .expoOne (.unaryUpdate (by simp [head, unaryOperator, *]) (by simp [head, *])
    (.updNone (.call (a := false) (fun _ => ?_) (by simp [head, *]) (.opPrimary ?_ (by simp [head, *]))
      (.callStop (by simp_all [head, callMore]))) (by simp [head, *]) (by simp [head, *])
      (.inr (by simp_all [head])))) (by simp_all [head])))

/-- An operand ends in front of these. -/
def ends : Token → Bool
  | .punct .assign | .punct .plus | .punct .semiColon | .punct .closeParen | .eof => true
  | _ => false

theorem identExpo {C : Cfg} {Γ : Env} (n : Txt) {t u : Tok} {o : List Tok}
    (ht : t.item.token = .ident) (hn : C.text t = n) (hna : n ≠ t!"async")
    (hu : ends u.item.token = true) :
    Core C Γ (.expo (true, true) (.ident n)) (t :: u :: o) (u :: o) := by
  subst hn
  unfold ends at hu
  split at hu <;> first | (cases hu; done) | skip
  all_goals
    up
    · exact hna
    · exact .primIdent ht (.inl hna)

theorem numberExpo {C : Cfg} {Γ : Env} (n : Txt) {t u : Tok} {o : List Tok}
    (ht : t.item.token = .numeric) (hn : C.text t = n) (hna : n ≠ t!"async")
    (hu : ends u.item.token = true) :
    Core C Γ (.expo (false, false) (.literal (.number n))) (t :: u :: o) (u :: o) := by
  subst hn
  unfold ends at hu
  split at hu <;> first | (cases hu; done) | skip
  all_goals
    up
    · exact hna
    · exact .primNumber ht

theorem ifProgram_core : ∃ ps o, Core (cfg ifProgram) Env.top (.parts false ps) ifItems o ∧
    ps = [.stmt (.var [.mk (.identifier t!"x")
        (some (.binary .plus (.ident t!"a") (.literal (.number t!"1"))))]),
      .stmt (.if (.ident t!"a")
        (.expr (.assignment .equal (.ident t!"x") (.literal (.number t!"1")))) none)] := by
  have ha : Core (cfg ifProgram) Env.top (.expo _ (.ident t!"a"))
      (ifItems.drop 3) (ifItems.drop 4) := identExpo _ rfl (by decide) (by decide) rfl
  have h1 : Core (cfg ifProgram) Env.top (.expo _ (.literal (.number t!"1")))
      (ifItems.drop 5) (ifItems.drop 6) := numberExpo _ rfl (by decide) (by decide) rfl
  have ha' : Core (cfg ifProgram) Env.top (.expo _ (.ident t!"a"))
      (ifItems.drop 9) (ifItems.drop 10) := identExpo _ rfl (by decide) (by decide) rfl
  have hx : Core (cfg ifProgram) Env.top (.expo _ (.ident t!"x"))
      (ifItems.drop 11) (ifItems.drop 12) := identExpo _ rfl (by decide) (by decide) rfl
  have h1' : Core (cfg ifProgram) Env.top (.expo _ (.literal (.number t!"1")))
      (ifItems.drop 13) (ifItems.drop 14) := numberExpo _ rfl (by decide) (by decide) rfl
  have hsum : Core (cfg ifProgram) Env.top (.assign _ _) (ifItems.drop 3) (ifItems.drop 6) :=
    .assign (.singleCond (.inl (by simp [ifItems, Cfg.other]; decide)) nofun (.condOne (.bin ha
      (.opMore (op := .bin .plus) rfl nofun nofun h1 (.opStop rfl)) nofun
        (.node (l := []) nofun nofun .one .one)) nofun) nofun rfl)
  have hcond : Core (cfg ifProgram) Env.top (.expression _) (ifItems.drop 9) (ifItems.drop 10) :=
    .expression (.assign (.singleCond (.inl (by simp [ifItems, Cfg.other]; decide)) nofun
      (.condOne (.binOne ha' rfl) nofun) nofun rfl)) nofun
  have heq : Core (cfg ifProgram) Env.top (.expression _) (ifItems.drop 11) (ifItems.drop 14) :=
    .expression (.assignEq nofun
      (.condOne (.binOne hx rfl) nofun) (.inl rfl) rfl nofun
      (.assign (.singleCond (.inl (by simp [Cfg.other]; decide)) nofun
        (.condOne (.binOne h1' rfl) nofun) nofun rfl))) nofun
  refine ⟨_, _, .partsItem (.inr nofun) (.itemStmt rfl (.stVar rfl (.varLast (.varInit
    (.patIdent (.ident rfl nofun)) rfl nofun hsum) nofun) (.semiToken rfl)))
    (.partsItem (.inl rfl) (.itemStmt rfl (.stIf rfl rfl hcond rfl (.clause nofun
      (.stExpr rfl (.inl (by decide)) heq nofun (.semiEnd (.inl rfl)))) nofun)) (.partsEnd rfl)), ?_⟩
  kernel_rfl

/-- `var if; async(1)`: a keyword is declared, `async` is called.  *(quirk)* -/
def oddProgram : List Piece :=
  [k .var, k .if, p .semiColon t!";", id t!"async", p .openParen t!"(", n t!"1",
    p .closeParen t!")"]

/-- Its items. -/
def oddItems : List Tok :=
  [⟨false, .keyword .var, 1, 4⟩, ⟨false, .keyword .if, 5, 7⟩, ⟨false, .punct .semiColon, 8, 9⟩,
    ⟨false, .ident, 10, 15⟩, ⟨false, .punct .openParen, 16, 17⟩, ⟨false, .numeric, 18, 19⟩,
    ⟨false, .punct .closeParen, 20, 21⟩, ⟨false, .eof, 21, 21⟩]

example : visible (lexer oddProgram) (builder oddProgram) = oddItems := by kernel_rfl

theorem oddProgram_core : ∃ ps o, Core (cfg oddProgram) Env.top (.parts false ps) oddItems o ∧
    ps = [.stmt (.var [.mk (.identifier t!"if") none]),
      .stmt (.expr (.call (.ident t!"async") [.literal (.number t!"1")]))] := by
  have h1 : Core (cfg oddProgram) Env.top (.expo _ (.literal (.number t!"1")))
      (oddItems.drop 5) (oddItems.drop 6) := numberExpo _ rfl (by decide) (by decide) rfl
  have hargs : Core (cfg oddProgram) (Env.top.within true) (.args _) (oddItems.drop 4)
      (oddItems.drop 7) :=
    .args rfl (.argLast (.arg (.assign (.singleCond (.inl (by simp [Cfg.other]; decide))
      nofun (.condOne (.binOne h1 rfl) nofun) nofun rfl))) rfl) rfl
  have hcall : Core (cfg oddProgram) Env.top (.expression _) (oddItems.drop 3) (oddItems.drop 7) :=
    .expression (.assign (.singleCond (.inr ⟨nofun, nofun⟩) nofun (.condOne (.binOne
      (.expoOne (.unaryUpdate rfl nofun (.updNone (.call (a := true) nofun nofun
        (.opPrimary (.primIdent rfl (.inr nofun)) nofun)
        (.callArgs hargs nofun (.callStop rfl))) nofun nofun (.inr ⟨nofun, nofun⟩))) nofun) rfl)
      nofun) nofun rfl)) nofun
  refine ⟨_, _, .partsItem (.inr nofun) (.itemStmt rfl (.stVar rfl (.varLast (.varNone
    (.patKeyword rfl nofun nofun rfl) nofun nofun (.inl rfl)) nofun) (.semiToken rfl)))
    (.partsItem (.inl rfl) (.itemStmt rfl (.stExpr rfl (.inr nofun) hcall nofun
      (.semiEnd (.inl rfl)))) (.partsEnd rfl)), ?_⟩
  kernel_rfl

end Demo

end Ressa
