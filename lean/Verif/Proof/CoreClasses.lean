import Verif.Proof.CoreMeans

/-!
# Classes

One theorem for each rule of `Core`.
-/

namespace Ressa.Gr

variable {C : Cfg}

set_option linter.unusedVariables false

theorem qual_paren : C.qual (.punct .openParen) = C.ext.isLiteral (.punct .openParen) := by
  simp [Cfg.qual, Token.isIdent, Token.isKeyword, Token.matchesPunct]

theorem qual_of {t : Token} (h : t.isIdent = true ∨ t.isKeyword = true ∨ C.ext.isLiteral t = true ∨
    t = .punct .openBracket) : C.qual t = true := by
  rcases h with h | h | h | rfl <;> simp [Cfg.qual, Token.matchesPunct, *]

theorem finish {Γ c s b c' p i f} (h : Finish c s b c' p) :
    Exec C Γ f i (classElFinish c s b) (c', p) f i := by
  cases h with
  | ctor h =>
    rcases h with h | h <;> ex
  | other h1 h2 h3 h4 =>
    rcases h4 with h4 | ⟨h4, h5⟩ | ⟨h4, h5⟩
    · ex
    · cases hc : b.computed <;> ex
    · cases hc : b.computed <;> ex

theorem Means.elMethod {Γ s k v i j o} (h1 : Ok C Γ (.key k) i j)
    (h2 : head i ≠ .punct .asterisk)
    (h3 : (isKey k t!"static" = true → s = true ∨ C.ext.isLiteral (.punct .openParen) = false))
    (h4 :
    (head i = .ident → isKey k t!"get" = true ∨ isKey k t!"set" = true → C.ext.isLiteral (.punct
    .openParen) = false)) (h5 : C.other t!"async" j) (h6 : Ok C Γ (.method false false v) j o) :
    Means C Γ (.elBody s ⟨some .init, true, some k, some v, atBracket i⟩) i o := by
  unpack
  obtain ⟨u, j, rfl, hu⟩ := other_split h5
  have hj : u.item.token = .punct .openParen := ‹head (u :: j) = _›
  have hq : C.qual (.punct .openParen) = C.ext.isLiteral (.punct .openParen) := qual_paren
  refine ⟨⟨head i, some k, atBracket i, s⟩, ⟨none, false, some k, none, atBracket i⟩, u :: j, u :: j,
    rfl, fun _ => h5, ?_, ?_, fun f => ?_, fun f => ?_⟩
  · rintro rfl
    refine ⟨rfl, fun f => ?_⟩
    have h3 : isKey k t!"static" = true → C.ext.isLiteral (.punct .openParen) = false := by
      simpa using h3
    cases hk : isKey k t!"static"
    · cases hn : C.nl (u :: j) <;> cases hd : (head i).isIdent <;> ex
    · have h3 := h3 hk
      cases hn : C.nl (u :: j) <;> cases hd : (head i).isIdent <;> ex
  · rintro rfl f
    ex
  · apply Exec.to_bot
    cases hd : (head i).isIdent
    · ex
    · have h4 := h4 (by cases h : head i <;> simp_all [Token.isIdent])
      cases hg : isKey k t!"get"
      · cases hs : isKey k t!"set"
        · ex
        · have h4 := h4 (.inr hs)
          ex
      · have h4 := h4 (.inl hg)
        ex
  · apply Exec.to_bot
    ex

theorem Means.elGet {Γ s t k v i j o} (h1 : t.item.token = .ident) (h2 : C.text t = t!"get")
    (h3 : (head i).isIdent = true ∨ (head i).isKeyword = true ∨ C.ext.isLiteral
    (head i) = true ∨ head i = .punct .openBracket) (h4 : C.other t!"async" i)
    (h5 : Ok C Γ (.key k) i j) (h6 : Ok C Γ (.getter v) j o) :
    Means C Γ (.elBody s ⟨some .get, false, some k, some v, atBracket i⟩) (t :: i) o := by
  unpack
  obtain ⟨u, j', rfl, hu⟩ := other_split h4
  have hq : C.qual u.item.token = true := qual_of h3
  have hk1 : isKey (.expr (.ident t!"get")) t!"static" = false := rfl
  have hk2 : isKey (.expr (.ident t!"get")) t!"get" = true := rfl
  have hk3 : isKey (.expr (.ident t!"get")) t!"set" = false := rfl
  refine ⟨⟨head (t :: u :: j'), some (.expr (.ident (C.text t))), false, s⟩,
    ⟨some .get, false, some k, some v, atBracket (u :: j')⟩, u :: j', o, rfl, fun _ => h4, ?_, ?_,
    fun f => ?_, fun f => ?_⟩
  · rintro rfl
    refine ⟨rfl, fun f => ?_⟩
    cases hn : C.nl (u :: j') <;> ex
  · rintro rfl f
    ex
  · apply Exec.to_bot
    ex
  · apply Exec.to_bot
    ex

theorem Means.elSet {Γ s t k v i j o} (h1 : t.item.token = .ident) (h2 : C.text t = t!"set")
    (h3 : (head i).isIdent = true ∨ (head i).isKeyword = true ∨ C.ext.isLiteral
    (head i) = true ∨ head i = .punct .openBracket) (h4 : C.other t!"async" i)
    (h5 : Ok C Γ (.key k) i j) (h6 : Ok C Γ (.setter v) j o) :
    Means C Γ (.elBody s ⟨some .set, false, some k, some v, atBracket i⟩) (t :: i) o := by
  unpack
  obtain ⟨u, j', rfl, hu⟩ := other_split h4
  have hq : C.qual u.item.token = true := qual_of h3
  have hk1 : isKey (.expr (.ident t!"set")) t!"static" = false := rfl
  have hk2 : isKey (.expr (.ident t!"set")) t!"get" = false := rfl
  have hk3 : isKey (.expr (.ident t!"set")) t!"set" = true := rfl
  refine ⟨⟨head (t :: u :: j'), some (.expr (.ident (C.text t))), false, s⟩,
    ⟨some .set, false, some k, some v, atBracket (u :: j')⟩, u :: j', o, rfl, fun _ => h4, ?_, ?_,
    fun f => ?_, fun f => ?_⟩
  · rintro rfl
    refine ⟨rfl, fun f => ?_⟩
    cases hn : C.nl (u :: j') <;> ex
  · rintro rfl f
    ex
  · apply Exec.to_bot
    ex
  · apply Exec.to_bot
    ex

theorem Means.elGen {Γ s t k v i j o} (h1 : Is t .asterisk) (h2 : (head i).isIdent = true ∨
    (head i).isKeyword = true ∨ C.ext.isLiteral (head i) = true ∨ head i = .punct .openBracket)
    (h3 : Ok C Γ (.key k) i j) (h4 : Ok C Γ (.method false true v) j o) :
    Means C Γ (.elBody s ⟨some .init, true, some k, some v, atBracket i⟩) (t :: i) o := by
  unpack
  have hq := qual_of h2
  refine ⟨⟨head (t :: i), none, false, s⟩,
    ⟨some .init, true, some k, some v, atBracket i⟩, i, o, rfl, ?_, ?_, ?_,
    fun f => ?_, fun f => ?_⟩
  · simp [head_cons, h1, Token.isIdent]
  · rintro rfl
    refine ⟨rfl, fun f => ?_⟩
    ex
  · rintro rfl f
    ex
  · apply Exec.to_bot
    ex
  · apply Exec.to_bot
    ex

theorem Means.classEl {Γ c c' b p i o} (h1 : C.other t!"async" i)
    (h2 : Ok C Γ (.elBody false b) i o) (h3 : Finish c false b c' p) :
    Means C Γ (.classEl c c' p) i o := by
  obtain ⟨u, j, rfl, hu⟩ := other_split h1
  obtain ⟨h, b', j', m, hs, -, hf, -, ha, hm⟩ := h2.means
  obtain ⟨ht, hf⟩ := hf rfl
  have hfin : ∀ f, Exec C Γ f o (classElFinish c h.isStatic b) (c', p) f o :=
    fun f => finish (hs ▸ h3)
  simp only [Means]
  intro f
  apply Exec.to_bot
  ex

theorem Means.classElAsync {Γ c c' k v p t i j o} (h1 : t.item.token = .ident)
    (h2 : C.text t = t!"async") (h3 : Ok C Γ (.key k) i j)
    (h4 : (isKey k t!"static" || isKey k t!"get" || isKey k t!"set") = false)
    (h5 : C.other t!"async" j) (h6 : Ok C Γ (.method true false v) j o)
    (h7 : Finish c false ⟨some .init, true, some k, some v, atBracket i⟩ c' p) :
    Means C Γ (.classEl c c' p) (t :: i) o := by
  obtain ⟨u, j, rfl, hu⟩ := other_split h5
  unpack
  have hj : u.item.token = .punct .openParen := ‹head (u :: j) = _›
  have hfin : ∀ f, Exec C Γ f o (classElFinish c false ⟨some .init, true, some k, some v, atBracket i⟩)
      (c', p) f o := fun f => finish h7
  simp only [Bool.or_eq_false_iff] at h4
  obtain ⟨⟨hk1, hk2⟩, hk3⟩ := h4
  have hh : ∀ f, Exec C Γ f i (classElHead full (head (t :: i))) ⟨.ident, some k, atBracket i, false⟩ f
      (u :: j) := fun f => by
    cases hn : C.nl (u :: j) <;> ex
  have ha : ∀ f, Exec C Γ f (u :: j) (classElAccessor full ⟨.ident, some k, atBracket i, false⟩)
      ⟨none, false, some k, none, atBracket i⟩ .none (u :: j) := fun f => by
    apply Exec.to_bot
    ex
  have hm : ∀ f, Exec C Γ f (u :: j) (classElMethod full true ⟨none, false, some k, none, atBracket i⟩)
      ⟨some .init, true, some k, some v, atBracket i⟩ .none o := fun f => by
    apply Exec.to_bot
    ex
  simp only [Means]
  intro f
  apply Exec.to_bot
  ex

theorem Means.classElStatic {Γ c c' b p t i o}
    (h1 : t.item.token.isIdent = true ∨ t.item.token.isKeyword = true)
    (h2 : C.text t = t!"static") (h3 : (head i).isIdent = true ∨
    (head i).isKeyword = true ∨ C.ext.isLiteral
    (head i) = true ∨ head i = .punct .openBracket ∨ head i = .punct .asterisk)
    (h4 : Ok C Γ (.elBody true b) i o) (h5 : Finish c true b c' p) :
    Means C Γ (.classEl c c' p) (t :: i) o := by
  obtain ⟨h, b', j', m, hs, ha', -, hf, ha, hm⟩ := h4.means
  have hf := hf rfl
  have hfin : ∀ f, Exec C Γ f o (classElFinish c h.isStatic b) (c', p) f o :=
    fun f => finish (hs ▸ h5)
  have hk : isKey (.expr (.ident t!"static")) t!"static" = true := rfl
  have hq : C.qual (head i) = true ∨ C.qual (head i) = false ∧ head i = .punct .asterisk := by
    cases hc : C.qual (head i)
    · rcases h3 with h3 | h3 | h3 | h3 | h3 <;> simp_all [Cfg.qual, Token.matchesPunct]
    · exact .inl rfl
  have hn : h.token.isIdent = false ∨ h.token.isIdent = true ∧
      ∃ u j, j' = u :: j ∧ C.text u ≠ t!"async" := by
    cases hd : h.token.isIdent
    · exact .inl rfl
    · exact .inr ⟨rfl, other_split (ha' hd)⟩
  simp only [Means]
  intro f
  apply Exec.to_bot
  rcases hn with hd | ⟨hd, u, j, rfl, hu⟩ <;> rcases hq with hq | ⟨hq, hh⟩ <;>
    (try rw [hh] at hq) <;> (try cases hn : C.nl (u :: j)) <;>
    cases ht : t.item.token <;> simp [ht, Token.isIdent, Token.isKeyword] at h1 <;> ex

theorem Means.classElsEnd {Γ c o} (h1 : head o = .punct .closeBrace) :
    Means C Γ (.classEls c []) o o := by
  refine ⟨c, ?_⟩
  intros
  apply Exec.to_bot
  halt

theorem Means.classElsSemi {Γ c l t i o} (h1 : Is t .semiColon) (h2 : Ok C Γ (.classEls c l) i o) :
    Means C Γ (.classEls c l) (t :: i) o := by
  unpack
  rename_i c' hc
  refine ⟨c', ?_⟩
  intros
  apply Exec.to_bot
  more

theorem Means.classElsMore {Γ c c' l p i j o} (h1 : Ok C Γ (.classEl c c' p) i j)
    (h2 : Ok C Γ (.classEls c' l) j o) :
    Means C Γ (.classEls c (p :: l)) i o := by
  unpack
  rename_i c' hc
  refine ⟨c', ?_⟩
  intros
  apply Exec.to_bot
  more

theorem Means.classBody {Γ l t t' i o} (h1 : Is t .openBrace)
    (h2 : Ok C Γ (.classEls false l) i (t' :: o)) (h3 : Is t' .closeBrace) :
    Means C Γ (.classBody l) (t :: i) o := by fw

theorem Means.heritageNone {Γ o} (h1 : C.other t!"extends" o) :
    Means C Γ (.heritage none) o o := by
  obtain ⟨u, j, rfl, hu⟩ := other_split h1
  fw

theorem Means.heritage {Γ t e i o} (h1 : C.text t = t!"extends") (h2 : Ok C Γ (.member e) i o) :
    Means C Γ (.heritage (some e)) (t :: i) o := by fw

theorem Means.classNameNone {Γ o} (h1 : head o ≠ .ident) :
    Means C Γ (.className true none) o o := by fw

theorem Means.className {Γ opt n i o} (h1 : Ok C Γ (.ident n) i o) :
    Means C Γ (.className opt (some n)) i o := by
  cases opt <;> fw

theorem Means.clsDropped {Γ opt t id e l i j k o} (h1 : Kw t .class)
    (h2 : Ok C Γ.strictly (.heritage (some e)) i j) (h3 : Ok C Γ.strictly (.className opt id) j k)
    (h4 : Ok C Γ.strictly (.classBody l) k o) :
    Means C Γ (.cls opt (.mk id none l)) (t :: i) o := by
  fw

theorem Means.cls {Γ opt t id sup l i j k o} (h1 : Kw t .class) (h2 : C.other t!"extends" i)
    (h3 : Ok C Γ.strictly (.className opt id) i j) (h4 : Ok C Γ.strictly (.heritage sup) j k)
    (h5 : Ok C Γ.strictly (.classBody l) k o) :
    Means C Γ (.cls opt (.mk id sup l)) (t :: i) o := by
  obtain ⟨u, j, rfl, hu⟩ := other_split h2
  fw

end Ressa.Gr
