import Verif.Props.RoundTrip

/-!
# A dot at the end of the text (C35)

The name after a dot is any item, so the end of the text will do.
-/

namespace Ressa

open Gr Print

namespace Print

variable {C : Cfg} {Γ : Env}

/-- May this follow the parts? -/
def mayFollow (ps : List ProgramPart) (t : Token) : Bool :=
  after t && t != .string && (ps.all (fun x => !isOpenExport x) || ends t)

theorem ends_of_followed {x : ProgramPart} {a b : Out} {i o : List Tok} {ps : List ProgramPart}
    (h : Sp C (followed x a b) i o) (ho : mayFollow (x :: ps) (head o) = true) :
    ∃ j, Sp C a i j ∧ Sp C b j o ∧ (isOpenExport x = true → ends (head j) = true) := by
  simp only [followed, sp_only, sp_cat, Bool.or_eq_true, Bool.not_eq_true'] at h
  obtain ⟨h0, j, h1, h2⟩ := h
  refine ⟨j, h1, h2, fun hx => ?_⟩
  obtain ⟨l, rfl, h3⟩ := h2
  have h0 := h0.resolve_left (by rw [hx]; simp)
  cases l with
  | nil =>
    have h3 : j = o := h3
    subst h3
    simp only [mayFollow, List.all_cons, hx, Bool.not_true, Bool.false_and, Bool.false_or,
      Bool.and_eq_true] at ho
    exact ho.2
  | cons y l =>
    obtain ⟨t, k, rfl, ⟨h4, -⟩, -⟩ := h3
    show ends t.item.token = true
    rw [h4]
    simpa [startsWith] using h0

/-- Printed parts with more behind them. -/
theorem parts_then {q : ProgramPart} {o o' : List Tok} (hΓ : Γ.allowIn = true)
    (hq : Core C Γ (.listItem q) o o') (ho' : head o' = .eof) :
    ∀ {ps : List ProgramPart} {pro i}, (∀ x ∈ ps, PartOk C Γ x) →
      Sp C (parts Γ pro ps) i o → mayFollow ps (head o) = true →
      Core C Γ (.parts (!pro) (ps ++ [q])) i o' ∧ after (head i) = true
  | [], pro, i, _, h, ho => by
    simp only [parts, sp_nil] at h
    subst h
    simp only [mayFollow, Bool.and_eq_true, bne_iff_ne] at ho
    exact ⟨.partsItem (.inr ho.1.2) hq (.partsEnd ho'), ho.1.1⟩
  | x :: ps, pro, i, hps, h, ho => by
    simp only [parts] at h
    obtain ⟨j, h1, h2, h3⟩ := ends_of_followed h ho
    have ho2 : mayFollow ps (head o) = true := by
      simp only [mayFollow, Bool.and_eq_true, List.all_cons, Bool.or_eq_true] at ho ⊢
      exact ⟨ho.1, ho.2.imp And.right id⟩
    obtain ⟨g1, g2⟩ := parts_then hΓ hq ho' (fun y hy => hps y (by simp [hy])) h2 ho2
    have hr := hps x (by simp) _ _ _ h1 g2 h3
    cases x with
    | dir s d =>
      obtain ⟨rfl, rfl, k1, t, t', rfl, k2, k3, k4, k5⟩ := hr
      exact ⟨.partsDir k2 (literal_expression k2 k4 k5 k3 hΓ) k1 (semi_ok k3) g1,
        by show after t.item.token = true; rw [k2]; rfl⟩
    | _ =>
      simp only [isDirPart, Bool.and_false, Bool.not_false] at g1
      obtain ⟨k1, k2⟩ := hr
      simp only [partStart, Bool.and_eq_true, bne_iff_ne] at k1
      exact ⟨.partsItem (.inr k1.2) k2 g1, k1.1⟩

end Print

variable {L : Lexer} {b : Builder} {ps : List ProgramPart} {e : Expr} {l l' : List Pc} {t : Tok}

/-- Any program, then an expression and a dot, and then nothing: the program is accepted, and the
last item is taken for the name of a property. -/
theorem dot_at_end (hok : ScannerOk b.js (L.scan b.js)) (hx : ExtOk L.ext)
    (hp : Print.parts Env.top true ps = some l)
    (he : shield badStmt (Print.sub 18 e (Print.expr Env.top e)) = some l')
    (hl : ∀ x ∈ l'.head?, mayFollow ps x.token = true)
    (hs : Spelled (cfgOf L b) (l ++ l' ++ [p .period]) (visible L b) [t]) :
    ∃ s s', b.build L = .ok () s ∧
      parse s = .ok (let qs := ps ++ [.stmt (.expr (.member e (.ident ((cfgOf L b).text t)) false))]
        if b.isModule then .mod qs else .script qs) s' := by
  obtain ⟨j, h1, h2⟩ := spelled_append.1 hs
  obtain ⟨k, h0, h3⟩ := spelled_append.1 h1
  obtain ⟨d, _, rfl, hd, h2⟩ := h2
  cases h2
  have hd : Is d .period := hd.1
  have hall := parts_all (C := cfgOf L b) hx
  have hne : head (d :: [t]) ≠ .punct .fatArrow := by
    show d.item.token ≠ _; rw [hd]; decide
  obtain ⟨⟨u, k, rfl, h4⟩, n, h5, h6⟩ := shield_ok (bad := badStmt) rfl (Γ := Env.top) rfl
    (expr_all (C := cfgOf L b) hx e Env.top rfl) (by omega) ⟨l', he, h3⟩ hne
  have hs := front_starts h6.front
  obtain ⟨h7, h8⟩ := starts_stmt hs h4
  have h9 : Core (cfgOf L b) Env.top (.expression (.member e (.ident ((cfgOf L b).text t)) false))
      (u :: k) [] := by
    have hw : W (cfgOf L b) Env.top 18 (true, false)
        (.member e (.ident ((cfgOf L b).text t)) false) (u :: k) [] :=
      ⟨fun _ => h6.other h5, front_mono h6.front h5, .call fun _ _ _ hh =>
        h6.call h5 (.callDot hd hh)⟩
    exact .expression (.assign (hw.single_soft (by omega) rfl (.inl (hw.other (by omega)))))
      (by decide)
  have h10 : Core (cfgOf L b) Env.top
      (.listItem (.stmt (.expr (.member e (.ident ((cfgOf L b).text t)) false)))) (u :: k)
      [] := by
    simp only [stmtStart, Bool.and_eq_true] at h7
    exact .itemStmt h7.1.2 (.stExpr h8 (.inl (badStmt_async h4)) h9 (by decide) (.semiEnd (.inl rfl)))
  have hk : mayFollow ps (head (u :: k)) = true := by
    cases l' with
    | nil =>
      cases h3
      simp only [head] at hs
      rw [hd] at hs
      exact absurd hs (by decide)
    | cons x l' =>
      obtain ⟨_, _, h3, hu, -⟩ := h3
      cases h3
      show mayFollow ps u.item.token = true
      rw [hu.1]
      exact hl x rfl
  exact core_accepted hok (parts_then (Γ := Env.top) rfl h10 rfl
    (fun x _ => part_all hx x Env.top rfl) ⟨l, hp, h0⟩ hk).1

/-- The same for texts: the layout is free, and the name is empty. -/
theorem dot_at_end_text {qs : List Demo.Piece} {tolerant isModule : Bool}
    (hp : Print.parts Env.top true ps = some l)
    (he : shield badStmt (Print.sub 18 e (Print.expr Env.top e)) = some l')
    (hl : ∀ x ∈ l'.head?, mayFollow ps x.token = true)
    (hq : LaidOut (l ++ l' ++ [p .period]) qs) (hn : PlainLines (l ++ l' ++ [p .period])) :
    Demo.parse qs tolerant isModule =
      .ok (let qs := ps ++ [.stmt (.expr (.member e (.ident t!"") false))]
        if isModule then .mod qs else .script qs) := by
  have hfine : Fine (some l +++ some l' +++ lit [p .period]) :=
    fine_cat (hp ▸ parts_fine ps Env.top true)
      (fine_cat (he ▸ fine_shield (fine_sub (expr_fine e Env.top)))
        (fine_lit (by simp [loose_p])))
  obtain ⟨hf, hti⟩ := hfine (l ++ l' ++ [p .period]) (by simp [cat, lit])
  obtain ⟨h1, h2⟩ := laidOut_ok hq hf
  have hv := visible_of_no_comment (tolerant := tolerant) (isModule := isModule) h2
  obtain ⟨e', h3, ht, h4⟩ := laidOut_spelled
    (C := cfgOf (Demo.lexer qs) (Demo.builder qs tolerant isModule)) hq hti
    (fun h => laidOut_lf hq (hn h)) [] rfl
  have h4' : Spelled (cfgOf (Demo.lexer qs) (Demo.builder qs tolerant isModule))
      (l ++ l' ++ [p .period])
      (visible (Demo.lexer qs) (Demo.builder qs tolerant isModule)) [e'] := by
    rw [hv]; exact h4
  obtain ⟨s, s', g1, g2⟩ := dot_at_end (b := Demo.builder qs tolerant isModule)
    (L := Demo.lexer qs) (Demo.scannerOk h1) demo_extOk hp he hl h4'
  rw [ht] at g2
  unfold Demo.parse Demo.start
  rw [g1]
  simp only [g2, Res.outcome, Demo.builder]
  rfl

namespace Demo

/-- `'d' ; f ( a ) . b .` -/
def dangling : List Piece :=
  [str t!"'d'", p .semiColon t!";", id t!"f", p .openParen t!"(", id t!"a", p .closeParen t!")",
    p .period t!".", id t!"b", p .period t!"."]

example : Demo.parse dangling = .ok (.script [.dir t!"'d'" t!"d",
    ex (.member (.member (.call (v t!"f") [v t!"a"]) (v t!"b") false) (v t!"") false)]) :=
  dot_at_end_text (ps := [.dir t!"'d'" t!"d"])
    (e := .member (.call (v t!"f") [v t!"a"]) (v t!"b") false) rfl rfl
    (by rintro x ⟨⟩; rfl) laidOut_oneLine
    (plainLines_of_loose rfl)

/-- After `new` and inside operators, too: `x = 1 + new a .` -/
example : Demo.parse [id t!"x", p .assign t!"=", n t!"1", p .plus t!"+", k .new, id t!"a",
    p .period t!"."] = .ok (.script [ex (.assignment .equal (v t!"x") (.binary .plus
      (.literal (.number t!"1")) (.new (.member (v t!"a") (v t!"") false) [])))]) := by kernel_rfl

/-- Any other item is a name as well: `a . .` -/
example : Demo.parse [id t!"a", p .period t!".", p .period t!"."] =
    .ok (.script [ex (.member (v t!"a") (v t!".") false)]) := by kernel_rfl

end Demo

end Ressa
