import Verif.Proof.Sound

/-!
# Every successful run is a derivation: expressions

The lemmas `Fl.f` say in addition that the flags after an expression are bounded by its tree.
-/

namespace Ressa

open Gr

variable {C : Cfg} {Γ : Env} {i : List Tok} {R : Rec} {f : Flags}

/-! ## The flags of lists -/

/-- The flags of the elements of an array. -/
def canElems (l : List (Option Expr)) : Flags := (coverElems true l, coverElems false l)
/-- The flags of the properties of an object. -/
def canProps (l : List ObjectProperty) : Flags := (coverProps true l, coverProps false l)
/-- The flags of a property. -/
def canProp (p : ObjectProperty) : Flags := (coverProp true p, coverProp false p)
/-- The flags of a list of expressions. -/
def canAll (l : List Expr) : Flags := (coverAll true l, coverAll false l)

section
variable {m : Bool} {e : Expr} {p : ObjectProperty}

theorem coverElems_append {l l' : List (Option Expr)} :
    coverElems m (l ++ l') = (coverElems m l && coverElems m l') := by
  induction l with
  | nil => simp [coverElems]
  | cons a l ih => cases a <;> simp [coverElems, ih, Bool.and_assoc]

theorem coverProps_append {l l' : List ObjectProperty} :
    coverProps m (l ++ l') = (coverProps m l && coverProps m l') := by
  induction l with
  | nil => simp [coverProps]
  | cons a l ih => simp [coverProps, ih, Bool.and_assoc]

theorem coverAll_append {l l' : List Expr} :
    coverAll m (l ++ l') = (coverAll m l && coverAll m l') := by
  induction l with
  | nil => simp [coverAll]
  | cons a l ih => simp [coverAll, ih, Bool.and_assoc]

theorem coverArgs_append {l l' : List FunctionArg} :
    coverArgs m (l ++ l') = (coverArgs m l && coverArgs m l') := by
  induction l with
  | nil => simp [coverArgs]
  | cons a l ih => cases a <;> simp [coverArgs, ih, Bool.and_assoc]

theorem coverArgs_map {l : List Expr} : coverArgs m (l.map .expr) = coverAll m l := by
  induction l with
  | nil => rfl
  | cons a l ih => simp [coverArgs, coverAll, ih]

theorem coverAll_iff {l : List Expr} : coverAll m l = true ↔ ∀ e ∈ l, cover m e = true := by
  induction l with
  | nil => simp [coverAll]
  | cons a l ih => simp [coverAll, ih]

mutual

/-- What can be a parameter can be assigned to. -/
theorem cover_mono : ∀ {e : Expr}, cover false e = true → cover true e = true
  | .array l, h => by rw [cover] at h ⊢; exact coverElems_mono h
  | .object l, h => by rw [cover] at h ⊢; exact coverProps_mono h
  | .spread e, h => by rw [cover] at h ⊢; exact cover_mono h
  | .assignment .equal l _, h => by rw [cover] at h ⊢; exact cover_mono h
  | .sequence l, h => by rw [cover] at h ⊢; exact coverAll_mono h
  | .taggedTemplate t _ _, h => by rw [cover] at h ⊢; exact cover_mono h
  | .await e, h => by rw [cover] at h ⊢; exact cover_mono h
  | .yield (some e) _, h => by rw [cover] at h ⊢; exact cover_mono h
  | .arrowParamPlaceHolder l _, h => by rw [cover] at h ⊢; exact coverArgs_mono h
  | .ident _, _ => by rw [cover]
  | .super, _ => by rw [cover]
  | .member _ _ _, _ => by rw [cover]
  | .template _ _, _ => by rw [cover]
  | .metaProperty _ _, _ => by rw [cover]
  | .yield none _, _ => by rw [cover]
  | .function _, _ => by rw [cover]
  | .arrowBlock _ _ _ _ _, _ => by rw [cover]
  | .arrowExpr _ _ _ _ _, h => by simp [cover] at h
  | .binary _ _ _, h => by simp [cover] at h
  | .call _ _, h => by simp [cover] at h
  | .class _, h => by simp [cover] at h
  | .conditional _ _ _, h => by simp [cover] at h
  | .literal _, h => by simp [cover] at h
  | .logical _ _ _, h => by simp [cover] at h
  | .new _ _, h => by simp [cover] at h
  | .this, h => by simp [cover] at h
  | .unary _ _ _, h => by simp [cover] at h
  | .update _ _ _, h => by simp [cover] at h
  | .assignment op l r, h => by
    by_cases ho : op = .equal
    · subst ho; rw [cover] at h ⊢; exact cover_mono h
    · rw [cover] at h <;> simp_all

theorem coverElems_mono : ∀ {l : List (Option Expr)}, coverElems false l = true →
    coverElems true l = true
  | [], _ => by rw [coverElems]
  | none :: l, h => by rw [coverElems] at h ⊢; exact coverElems_mono h
  | some e :: l, h => by
    rw [coverElems, Bool.and_eq_true] at h ⊢; exact ⟨cover_mono h.1, coverElems_mono h.2⟩

theorem coverProps_mono : ∀ {l : List ObjectProperty}, coverProps false l = true →
    coverProps true l = true
  | [], _ => by rw [coverProps]
  | p :: l, h => by
    rw [coverProps, Bool.and_eq_true] at h ⊢; exact ⟨coverProp_mono h.1, coverProps_mono h.2⟩

theorem coverProp_mono : ∀ {p : ObjectProperty}, coverProp false p = true → coverProp true p = true
  | .spread e, h => by rw [coverProp] at h ⊢; exact cover_mono h
  | .property (.mk _ v k m _ s), h => by
    cases s
    · cases k <;> cases m <;> simp only [coverProp, Bool.false_eq_true] at h ⊢
      exact coverValue_mono h
    · simp [coverProp]

theorem coverValue_mono : ∀ {v : PropertyValue}, coverValue false v = true →
    coverValue true v = true
  | .expr e, h => by rw [coverValue] at h ⊢; exact cover_mono h
  | .pat _, _ => by simp [coverValue]
  | .none, _ => by simp [coverValue]

theorem coverAll_mono : ∀ {l : List Expr}, coverAll false l = true → coverAll true l = true
  | [], _ => by rw [coverAll]
  | e :: l, h => by
    rw [coverAll, Bool.and_eq_true] at h ⊢; exact ⟨cover_mono h.1, coverAll_mono h.2⟩

theorem coverArgs_mono : ∀ {l : List FunctionArg}, coverArgs false l = true →
    coverArgs true l = true
  | [], _ => by rw [coverArgs]
  | .expr e :: l, h => by
    rw [coverArgs, Bool.and_eq_true] at h ⊢; exact ⟨cover_mono h.1, coverArgs_mono h.2⟩
  | .pat _ :: l, h => by rw [coverArgs] at h ⊢; exact coverArgs_mono h

end

theorem canElems_some {l} : canElems (l ++ [some e]) = (canBe e).and (canElems l) := by
  simp [canElems, canBe, Flags.and, coverElems_append, coverElems, Bool.and_comm]

theorem canElems_none {l} : canElems (l ++ [none]) = canElems l := by
  simp [canElems, coverElems_append, coverElems]

theorem canProps_one {l} : canProps (l ++ [p]) = (canProp p).and (canProps l) := by
  simp [canProps, canProp, Flags.and, coverProps_append, coverProps, Bool.and_comm]

theorem canAll_one {l} : canAll (l ++ [e]) = (canBe e).and (canAll l) := by
  simp [canAll, canBe, Flags.and, coverAll_append, coverAll, Bool.and_comm]

end

/-- Close a goal about flags. -/
macro "fl" : tactic => `(tactic| first
  | exact Flags.le_top
  | exact Flags.bot_le
  | exact Flags.Le.refl
  | exact Flags.and_le
  | (simp only [Flags.and_top, Flags.top_and, Flags.and_bot, Flags.bot_and]; first
      | exact Flags.le_top
      | exact Flags.bot_le
      | exact Flags.Le.refl
      | exact Flags.and_le)
  | (simp [Flags.Le, Flags.and, canBe, canProp, cover, coverElems, coverProps, coverProp,
      coverValue, coverAll, coverArgs]; done))

/-- Follow the computation, then prove the bound and look for derivations. -/
macro "sxf" : tactic => `(tactic| (refine RunF.tight ?_; sx <;> first
  | (refine And.intro ?_ ?_ <;> first | fl | gx | skip)
  | gx
  | skip))

namespace Fl
variable [RecOk C R]

theorem spreadElement : RunF C Γ f i (spreadElement R) fun e g o =>
    g = (canBe e).and f ∧ G C Γ (.spread e) i o := by
  unfold Ressa.spreadElement
  sx
  exact ⟨rfl, by gx⟩

end Fl

namespace Rn
variable [RecOk C R]

theorem spreadElement : Run C Γ i (spreadElement R) fun e o => G C Γ (.spread e) i o :=
  (Fl.spreadElement).toRun (c := fun e => (canBe e).and (true, true))

theorem expectCommaSep : Run C Γ i expectCommaSep fun _ o => G C Γ .sep i o := by
  intro s a s' hs hm
  unfold Ressa.expectCommaSep at hm
  by_cases ht : s.tolerant = true
  · rw [if_pos ht] at hm
    have ht' : C.tolerant = true := hs.cfg ▸ ht
    refine (?_ : Run C Γ i (do if ← Ressa.atPunct .comma then Ressa.skipItem else pure ())
      fun _ o => G C Γ .sep i o) s a s' hs hm
    sxg
  · rw [if_neg ht] at hm
    refine (?_ : Run C Γ i (Ressa.expectPunct .comma) fun _ o => G C Γ .sep i o) s a s' hs hm
    sxg

theorem argList {m : P Expr} (hm : ∀ i, Run C Γ i m fun e o => G C Γ (.assign e) i o) :
    Run C Γ i (argList R m) fun l o => G C Γ (.args l) i o := by
  unfold Ressa.argList
  sx
  · gx
  · rename_i j _ _ _
    refine Run.loopP (fun l o => ∀ e o', G C Γ (.arg e) o o' →
      G C Γ (.argSeq (l ++ [e])) j o') ?_ ?_
    · intro e o' h
      exact .argFirst h
    intro l o hl
    sx
    all_goals try have := hl _ _ (.argSpread ‹_›)
    all_goals try gx
    all_goals
      refine (hm _).mono ?_
      sx
      all_goals have := hl _ _ (.arg ‹_›)
      all_goals gx

theorem asyncArg : Run C Γ i (asyncArg R) fun e o => G C Γ (.assign e) i o := by
  unfold Ressa.asyncArg
  sxg

theorem args : Run C Γ i (args R) fun l o => G C Γ (.args l) i o := argList fun _ => Rec.assign

theorem asyncArgs : Run C Γ i (asyncArgs R) fun l o => G C Γ (.args l) i o :=
  argList fun _ => asyncArg

theorem objPropKey {it} (hi : itemIs i it) : Run C Γ i (objPropKey R it) fun r o =>
    G C Γ (.propHead r.1 r.2.1 r.2.2) i o := by
  have := hi.token
  unfold Ressa.objPropKey
  sxg

end Rn

namespace Kp
variable [RecOk C R]

theorem expectCommaSep : Keeps expectCommaSep := by
  intro s a s' hm
  unfold Ressa.expectCommaSep at hm
  split at hm
  · refine (?_ : Keeps (do if ← atPunct .comma then skipItem else pure ())) s a s' hm
    kp
  · refine (?_ : Keeps (expectPunct .comma)) s a s' hm
    kp

omit [RecOk C R] in
theorem spreadElement : Keeps (spreadElement R) := by kp

omit [RecOk C R] in
theorem argList {m : P Expr} : Keeps (argList R m) := by
  unfold Ressa.argList
  kp

end Kp

namespace Fl
variable [RecOk C R]

/-- What the search for a second `_proto_` property finds out. -/
def ProtoOk (C : Cfg) (p : Bool) (r : Bool × ObjectProperty) : Prop :=
  r.1 = (p || isProtoInit r.2) ∧ (p = true → isProtoInit r.2 = true → C.tolerant = true)

/-- The same for all properties so far. -/
def ProtosOk (C : Cfg) (p : Bool × List ObjectProperty) : Prop :=
  p.1 = p.2.any isProtoInit ∧ ((p.2.filter isProtoInit).length ≤ 1 ∨ C.tolerant = true)

theorem ProtosOk.add {p : Bool × List ObjectProperty} {r : Bool × ObjectProperty}
    (h : ProtosOk C p) (hr : ProtoOk C p.1 r) : ProtosOk C (p.1 || r.1, p.2 ++ [r.2]) := by
  obtain ⟨h1, h2⟩ := h
  obtain ⟨h3, h4⟩ := hr
  refine ⟨by simp [h3, h1], ?_⟩
  simp only [List.filter_append, List.length_append]
  cases hp : isProtoInit r.2
  · simpa [hp] using h2
  · cases hq : p.1
    · left
      have : p.2.filter isProtoInit = [] := by
        rw [hq] at h1
        simpa using h1.symm
      simp [this, hp]
    · exact .inr (h4 hq hp)

theorem ProtosOk.spread {p : Bool × List ObjectProperty} {e : Expr} (h : ProtosOk C p) :
    ProtosOk C (p.1, p.2 ++ [.spread e]) := by
  simpa [ProtosOk, isProtoInit] using h

theorem objPropRest {i₀ p it pos key a c} (hi : itemIs i₀ it)
    (hk : G C Γ (.propHead (some key) a c) i₀ i) :
    RunF C Γ f i (objPropRest R p it pos key a c) fun r g o =>
      g = (canProp r.2).and f ∧ G C Γ (.objProp r.2) i₀ o ∧ ProtoOk C p r := by
  have := hi.token
  refine RunF.tight ?_
  unfold Ressa.objPropRest
  sx <;> refine ⟨?_, ?_, ?_⟩ <;> first | fl | gx | (simp [ProtoOk, isProtoInit]; done) | skip
  · simp_all [ProtoOk, isProtoInit]
  · refine ⟨rfl, fun h1 h2 => ?_⟩
    simp_all [isProtoInit]

theorem objProp {p} : RunF C Γ f i (objProp R p) fun r g o =>
    g = (canProp r.2).and f ∧ G C Γ (.objProp r.2) i o ∧ ProtoOk C p r := by
  refine RunF.tight ?_
  unfold Ressa.objProp
  sx
  · have := itemIs.text (C := C) (w := t!"get") ‹itemIs i _›
    exact ⟨by fl, by gx, by simp [ProtoOk, isProtoInit]⟩
  · have := itemIs.text (C := C) (w := t!"set") ‹itemIs i _›
    exact ⟨by fl, by gx, by simp [ProtoOk, isProtoInit]⟩
  · exact ⟨by fl, by gx, by simp [ProtoOk, isProtoInit]⟩
  · exact ⟨.refl, ‹_›, ‹_›⟩

theorem objInit : RunF C Γ f i (objInit R) fun e g o => g = (canBe e).and f ∧ G C Γ (.object e) i o := by
  refine RunF.tight ?_
  unfold Ressa.objInit
  sx
  rename_i j _ _
  refine RunF.untilP (fun p g o => g = (canProps p.2).and f ∧ G C Γ (.objProps p.2) j o ∧
      ProtosOk C p) ⟨by simp [canProps, coverProps], .objPropsNil, by simp [ProtosOk]⟩
    (fun _ => by tst) (by kp) ?_ ?_
  · intro l g o hl
    sx
    have := ‹ProtosOk C _›.2
    exact ⟨.refl, by gx⟩
  · intro l g o hl
    sx
    all_goals refine ⟨by simp only [canProps_one, Flags.and_assoc]; first | done | rfl, ?_, ?_⟩
    all_goals first | gx | exact ‹ProtosOk C _›.spread | exact ‹ProtosOk C _›.add ‹_›

theorem arrayInit : RunF C Γ f i (arrayInit R) fun e g o => g = canBe e ∧ G C Γ (.array e) i o := by
  refine RunF.tight ?_
  unfold Ressa.arrayInit
  sx
  rename_i j _ _
  refine RunF.untilP (fun l g o => g.Le (canElems l) ∧ G C Γ (.elems l) j o)
    ⟨Flags.le_top, .elemsNil⟩ (fun _ => by tst) (by kp) ?_ ?_
  · intro l g o hl
    sx
    exact ⟨‹_›, by gx⟩
  · intro l g o hl
    sx
    all_goals refine ⟨?_, ?_⟩
    all_goals first | gx | skip
    · rwa [canElems_none]
    · fl
    · rw [canElems_some]; exact Flags.Le.refl.and ‹_›
    · rw [canElems_some]; exact Flags.Le.refl.and ‹_›
    · rw [canElems_some]; exact Flags.Le.refl.and ‹_›

end Fl

namespace Rn
theorem requireFatArrow :
    Run C Γ i requireFatArrow fun _ o => o = i ∧ head i = .punct .fatArrow := by
  unfold Ressa.requireFatArrow
  sxg

end Rn

namespace Fl
variable [RecOk C R]

theorem groupClose' {e l i₀ t} (h1 : Is t .openParen) (h2 : G C Γ (.groupSeq l) i₀ i)
    (h3 : e = groupOf l) (hf : f.Le (canBe e)) :
    RunF C Γ f i (groupClose e) fun e g o => g = canBe e ∧ G C Γ (.group e) (t :: i₀) o := by
  have hb : f.2 = true → mayBind (groupOf l) = true := fun h => h3 ▸ hf.2 h
  refine RunF.tight ?_
  unfold Ressa.groupClose
  sx
  · have h := G.groupArrow h1 h2 ‹_› ‹_›
      (by cases hg : groupOf l <;> simp_all [isIdentExpr, mayBind, cover])
    refine ⟨?_, ?_⟩
    · cases hg : groupOf l <;> simp_all [isIdentExpr]
      fl
    · rwa [show arrowArgs (groupOf l) = [.expr (groupOf l)] by
        cases hg : groupOf l <;> simp_all [isIdentExpr, arrowArgs]] at h
  · have h := G.groupArrow h1 h2 ‹_› ‹_› (hb ‹_›)
    refine ⟨?_, ?_⟩
    · rw [‹groupOf l = _›] at hf
      simpa [canBe, cover, coverArgs_map] using hf
    · simpa only [‹groupOf l = _›, arrowArgs] using h
  · have h := G.groupArrow h1 h2 ‹_› ‹_› (hb ‹_›)
    refine ⟨?_, ?_⟩
    · show f.Le (cover true (.arrowParamPlaceHolder _ _), cover false (.arrowParamPlaceHolder _ _))
      rw [cover, coverArgs, coverArgs, Bool.and_true, cover, coverArgs, coverArgs, Bool.and_true]
      exact hf
    · rwa [show arrowArgs (groupOf l) = [.expr (groupOf l)] by
        cases hg : groupOf l <;> simp_all [arrowArgs]] at h
  · exact ⟨hf, by gx⟩

theorem groupLoop' {e i₀ t} (h1 : Is t .openParen) (h2 : G C Γ (.assign e) i₀ i)
    (h3 : head i = .punct .comma) (hf : f.Le (canBe e)) :
    RunF C Γ f i (groupLoop R e) fun r g o =>
      match r with
      | .inl e => g.Le (canBe e) ∧ G C Γ (.group e) (t :: i₀) o
      | .inr l => g.Le (canBe (.sequence l)) ∧ G C Γ (.groupSeq l) i₀ o ∧
          Expr.sequence l = groupOf l := by
  unfold Ressa.groupLoop
  refine RunF.loopP (fun l g o => g.Le (canAll l) ∧ G C Γ (.groupSeq l) i₀ o ∧ ∃ x l', l = x :: l' ∧
    (l' = [] → head o = .punct .comma))
    ⟨by simpa [canAll, coverAll, canBe] using hf, .groupFirst h2, _, _, rfl, fun _ => h3⟩ ?_
  intro l g o hl
  sx
  · refine ⟨‹_›, ‹_›, ?_⟩
    rename_i l' _ _ _ _
    cases l' with
    | nil => gr_simp
    | cons => rfl
  · refine ⟨?_, by gx⟩
    rw [canBe, cover, cover, coverArgs_map, coverArgs_map]
    assumption
  · have hb := coverAll_iff.1 (And.right ‹Flags.Le _ _› ‹_›)
    refine ⟨?_, ?_⟩
    · rw [canBe, cover, cover, coverArgs_append, coverArgs_append, coverArgs_map, coverArgs_map,
        coverAll_iff.2 hb, coverAll_iff.2 fun e he => cover_mono (hb e he)]
      exact .refl
    · exact .groupSeqRest h1 ‹_› (by gr_side) hb ‹_› ‹_›
  · exact ⟨by rw [canAll_one]; exact Flags.Le.refl.and ‹_›, .groupMore ‹_› (by gr_side) ‹_›, _, _, rfl, by simp⟩

theorem groupExpr : RunF C Γ f i (groupExpr R) fun e g o => g = canBe e ∧ G C Γ (.group e) i o := by
  refine RunF.tight ?_
  unfold Ressa.groupExpr
  sx
  · exact ⟨by fl, by gx⟩
  · exact ⟨by fl, by gx⟩
  · refine (groupLoop' ‹_› ‹_› ‹_› Flags.and_le).mono ?_
    intro r g o h
    cases r with
    | inl e => exact RunF.pure h
    | inr l => exact (groupClose' ‹_› h.2.1 h.2.2 h.1).mono fun _ _ _ h => ⟨h.1 ▸ .refl, h.2⟩
  · exact (groupClose' ‹_› (.groupFirst ‹_›) rfl Flags.and_le).mono fun _ _ _ h => ⟨h.1 ▸ .refl, h.2⟩

theorem numberOrString : RunF C Γ f i numberOrString fun e g o => g = canBe e ∧ G C Γ (.primary e) i o := by
  unfold Ressa.numberOrString
  sxf

theorem booleanLiteral : RunF C Γ f i booleanLiteral fun e g o => g = canBe e ∧ G C Γ (.primary e) i o := by
  unfold Ressa.booleanLiteral
  sxf

end Fl

namespace Rn

theorem splitLastSlash_spec {t a b : Txt} (h : splitLastSlash t = some (a, b)) :
    t = a ++ '/' :: b ∧ '/' ∉ b := by
  have none : ∀ {t}, splitLastSlash t = none → '/' ∉ t := by
    intro t
    induction t with
    | nil => simp
    | cons c t ih =>
      intro h
      simp only [splitLastSlash] at h
      split at h
      · exact nomatch h
      · next h' =>
        split at h
        · exact nomatch h
        · next hc =>
          have := ih h'
          simp only [List.mem_cons, not_or]
          exact ⟨fun e => hc (by simp [← e]), this⟩
  induction t generalizing a with
  | nil => simp [splitLastSlash] at h
  | cons c t ih =>
    simp only [splitLastSlash] at h
    split at h
    · next a' b' h' =>
      simp only [Option.some.injEq, Prod.mk.injEq] at h
      obtain ⟨rfl, rfl⟩ := h
      obtain ⟨h1, h2⟩ := ih h'
      exact ⟨by rw [h1]; rfl, h2⟩
    · next h' =>
      split at h
      · next hc =>
        simp only [Option.some.injEq, Prod.mk.injEq] at h
        obtain ⟨rfl, rfl⟩ := h
        exact ⟨by simp_all, none h'⟩
      · exact nomatch h

theorem sliceB_tail {t u : Txt} (h : sliceB t 1 (blen t) = some u) : ∃ c, t = c :: u := by
  obtain ⟨p, q, rfl, h1, h2⟩ := sliceB_iff.1 h
  simp only [blen_append] at h2
  have hq : q = [] := blen_eq_zero.1 (by omega)
  subst hq
  cases p with
  | nil => simp at h1
  | cons c p =>
    have := c.utf8Size_pos
    have hp : p = [] := blen_eq_zero.1 (by simp at h1; omega)
    subst hp
    exact ⟨c, by simp⟩

end Rn

namespace Fl
variable [RecOk C R]

theorem functionExpr : RunF C Γ f i (functionExpr R) fun e g o => g = canBe e ∧ G C Γ (.fnExpr e) i o := by
  refine RunF.tight ((RunF.of_run Rn.functionExpr).mono ?_)
  rintro e g o ⟨rfl, h⟩
  refine ⟨?_, h⟩
  cases h
  fl

theorem regexLiteral : RunF C Γ f i regexLiteral fun e g o => g = canBe e ∧ G C Γ (.primary e) i o := by
  refine RunF.tight ?_
  unfold Ressa.regexLiteral
  sx
  rename_i h _ h'
  obtain ⟨h1, h2⟩ := Rn.splitLastSlash_spec h
  obtain ⟨c, rfl⟩ := Rn.sliceB_tail h'
  exact ⟨by fl, .primRegex ‹_› h1 h2⟩

theorem primaryKeyword (h : (head i).isKeyword = true) :
    RunF C Γ f i (primaryKeyword R) fun e g o => g = canBe e ∧ G C Γ (.primary e) i o := by
  obtain ⟨k, hk⟩ : ∃ k, head i = .keyword k := by
    cases hh : head i <;> simp_all [Token.isKeyword]
  unfold Ressa.primaryKeyword
  sxf

theorem primaryPunct : RunF C Γ f i (primaryPunct R) fun e g o =>
    g = canBe e ∧ G C Γ (.primary e) i o := by
  unfold Ressa.primaryPunct
  sxf

theorem primaryIdent (h : head i = .ident) :
    RunF C Γ f i (primaryIdent R) fun e g o => g = canBe e ∧ G C Γ (.primary e) i o := by
  unfold Ressa.primaryIdent
  sxf

theorem primary : RunF C Γ f i (primary R) fun e g o => g = canBe e ∧ G C Γ (.primary e) i o := by
  unfold Ressa.primary
  sxf

theorem newExpr : RunF C Γ f i (newExpr R) fun e g o => g = canBe e ∧ G C Γ (.newExpr e) i o := by
  unfold Ressa.newExpr
  sxf

theorem superExpr : RunF C Γ f i superExpr fun e g o => g = canBe e ∧
    ∃ t, i = t :: o ∧ Kw t .super ∧ e = .super ∧
      (head o = .punct .openBracket ∨ head o = .punct .period) := by
  refine RunF.tight ?_
  unfold Ressa.superExpr
  sx
  exact ⟨by fl, _, rfl, ‹_›, rfl, by gr_side⟩

theorem newOrPrimary : RunF C Γ f i (newOrPrimary R) fun e g o =>
    g = canBe e ∧ G C Γ (.operand e) i o := by
  unfold Ressa.newOrPrimary
  sxf

theorem computedMember {e} : RunF C Γ f i (computedMember R e) fun e' g o => g = canBe e' ∧
    ∃ t t' j x, i = t :: j ∧ Is t .openBracket ∧ G C Γ (.expression x) j (t' :: o) ∧
      Is t' .closeBracket ∧ e' = .member e x true := by
  refine RunF.tight ?_
  unfold Ressa.computedMember
  sx
  exact ⟨by fl, _, _, _, _, rfl, ‹_›, ‹_›, ‹_›, rfl⟩

theorem dotMember {b e} : RunF C Γ f i (dotMember b e) fun e' g o => g = canBe e' ∧
    ∃ t j n, i = t :: j ∧ Is t .period ∧ G C Γ (.name n) j o ∧ e' = .member e (.ident n) false := by
  refine RunF.tight ?_
  unfold Ressa.dotMember
  sx
  exact ⟨by cases b <;> fl, _, _, _, rfl, ‹_›, .name, rfl⟩

theorem taggedTemplate {e} (hf : f.Le (canBe e)) :
    RunF C Γ f i (taggedTemplate R e) fun e' g o => g = canBe e' ∧
      ∃ es qs, G C Γ (.tpl es qs) i o ∧ e' = .taggedTemplate e es qs := by
  refine RunF.tight ?_
  unfold Ressa.taggedTemplate
  sx
  exact ⟨by simpa [canBe, cover] using hf, _, _, ‹_›, rfl⟩

theorem lhsExpr : RunF C Γ f i (lhsExpr R) fun e g o => g = canBe e ∧ G C Γ (.member e) i o ∧ memEnd o := by
  unfold Ressa.lhsExpr
  refine RunF.bind ?_
  refine RunF.mono (Q := fun e g o => g = canBe e ∧ G C Γ (.member e) i o) ?_ ?_
  · sxf
  · intro e g o he
    refine RunF.loopP (fun e g o => g = canBe e ∧ G C Γ (.member e) i o) he ?_
    intro e g o he
    sx
    all_goals first
      | exact .refl
      | exact ⟨rfl, by gx⟩
      | exact ⟨rfl, ‹_›, by simp_all [memEnd, matchesPunct_false]⟩

theorem callSuffix' {a p e i₀} (h : G C Γ (.call e) i₀ i)
    (ha : a = true → C.textIs t!"async" i₀ true) :
    RunF C Γ f i (callSuffix R a p e) fun e' g o => g = canBe e' ∧ G C Γ (.call e') i₀ o := by
  refine RunF.tight ?_
  unfold Ressa.callSuffix
  sx
  · exact ⟨by fl, .callAsync (ha (by simp_all)) h ‹_› ‹_›⟩
  · exact ⟨by fl, by gx⟩
  · exact ⟨by fl, by gx⟩

theorem superCallee : RunF C Γ f i superCallee fun e g o => g = canBe e ∧
    ∃ t, i = t :: o ∧ e = .super ∧
      (head o = .punct .openParen ∨ head o = .punct .period ∨ head o = .punct .openBracket) := by
  refine RunF.tight ?_
  unfold Ressa.superCallee
  sx
  exact ⟨by fl, _, rfl, rfl, by gr_side⟩

theorem lhsAllowCall : RunF C Γ f i (lhsAllowCall R) fun e g o =>
    g = canBe e ∧ G C (Γ.within true) (.call e) i o := by
  unfold Ressa.lhsAllowCall
  refine RunF.bind ((RunF.of_keeps (by kp) Rn.lookPos).mono ?_)
  rintro pos g j ⟨rfl, rfl⟩
  refine RunF.bind ((RunF.of_keeps (by kp) Rn.atContextual).mono ?_)
  rintro a g' j' ⟨rfl, rfl, ha⟩
  refine Sf.withAllowIn (RunF.bind ?_)
  refine RunF.mono (Q := fun e g o => g = canBe e ∧ G C (Γ.within true) (.call e) j' o) ?_ ?_
  · sxf
  · intro e g o he
    refine RunF.loopP (fun e g o => g = canBe e ∧ G C (Γ.within true) (.call e) j' o) he ?_
    rintro e g o ⟨rfl, he⟩
    sx
    · exact ⟨rfl, by gx⟩
    · refine (callSuffix' he ?_).mono ?_
      · rintro rfl; exact ha
      · sx
        exact ⟨rfl, ‹_›⟩
    · exact ⟨rfl, by gx⟩
    · exact .refl
    · exact ⟨rfl, by gx⟩
    · exact ⟨rfl, by gx⟩

theorem prefixUpdate : RunF C Γ f i (prefixUpdate R) fun e g o =>
    g = canBe e ∧ G C Γ (.update e) i o := by
  refine RunF.tight ?_
  unfold Ressa.prefixUpdate
  sx
  all_goals refine ⟨by fl, ?_⟩
  all_goals try have : mayAssign _ = true := Flags.and_le.1 ‹_›
  all_goals gx

theorem postfixUpdate' {it e i₀} (h : G C (Γ.within true) (.call e) i₀ i)
    (h2 : C.nl i = false) (hf : f.Le (canBe e)) :
    RunF C Γ f i (postfixUpdate it e) fun e g o => g = canBe e ∧ G C Γ (.update e) i₀ o := by
  refine RunF.tight ?_
  unfold Ressa.postfixUpdate
  sx
  all_goals refine ⟨by fl, ?_⟩
  all_goals try have : mayAssign _ = true := hf.1 ‹_›
  all_goals gx

theorem updateExpr : RunF C Γ f i (updateExpr R) fun e g o =>
    g = canBe e ∧ G C Γ (.update e) i o := by
  refine RunF.tight ?_
  unfold Ressa.updateExpr
  sx
  · exact ⟨.refl, ‹_›⟩
  · refine (postfixUpdate' ‹_› ?_ Flags.and_le).mono fun _ _ _ h => ⟨h.1 ▸ .refl, h.2⟩
    gr_side
  · exact ⟨Flags.and_le, by gx⟩

theorem awaitExpr : RunF C Γ f i (awaitExpr R) fun e g o => g = canBe e ∧
    ∃ t j x, i = t :: j ∧ G C Γ (.unary x) j o ∧ e = .await x := by
  refine RunF.tight ?_
  unfold Ressa.awaitExpr
  sx
  exact ⟨by simp [canBe, cover, Flags.Le], _, _, _, rfl, ‹_›, rfl⟩

end Fl

namespace Rn

theorem unaryOp {t} : Run C Γ i (unaryOp t) fun op o => o = i ∧ unaryOperator t = some op := by
  unfold Ressa.unaryOp
  sxg

end Rn

namespace Fl
variable [RecOk C R]

theorem prefixUnary : RunF C Γ f i (prefixUnary R) fun e g o =>
    g = canBe e ∧ G C Γ (.unary e) i o := by
  unfold Ressa.prefixUnary
  sxf

theorem unaryExpr : RunF C Γ f i (unaryExpr R) fun e g o =>
    g = canBe e ∧ G C Γ (.unary e) i o := by
  unfold Ressa.unaryExpr
  sxf

theorem expoExpr : RunF C Γ f i (expoExpr R) fun e g o => g = canBe e ∧ G C Γ (.expo e) i o := by
  unfold Ressa.expoExpr
  sxf

end Fl

namespace Rn
variable [RecOk C R]

theorem expoExpr : Run C Γ i (expoExpr R) fun e o => G C Γ (.expo e) i o := Fl.expoExpr.toRun

omit [RecOk C R]

theorem lookPrecedence : Run C Γ i lookPrecedence fun n o => o = i ∧
    n = binPrecedence Γ.allowIn (head i) := by
  unfold Ressa.lookPrecedence
  sxg

theorem mkBinary {t l r} : Run C Γ i (mkBinary t l r) fun e o => o = i ∧
    ∃ op, opOf t = some op ∧ e = op.node l r := by
  unfold Ressa.mkBinary opOf
  sx
  · next h => exact ⟨rfl, _, by rw [h], rfl⟩
  · rename_i h' _ _ h
    have : logicalOperator t = none := by
      cases t with
      | punct p => cases p <;> first | rfl | simp [Token.matchesPunct] at h'
      | _ => rfl
    exact ⟨rfl, .bin _, by rw [this, h]; rfl, rfl⟩

/-- A positive precedence belongs to an operator. -/
theorem opOf_precedence {b t} (h : binPrecedence b t ≠ 0) : ∃ op, opOf t = some op ∧
    op.level = binPrecedence b t ∧ (t = .keyword .in → b = true) := by
  cases t with
  | punct p =>
    cases p <;> first | exact absurd rfl h | exact ⟨_, rfl, rfl, by simp⟩
  | keyword k =>
    simp only [binPrecedence] at h
    split at h
    · next hk =>
      simp only [Bool.or_eq_true, beq_iff_eq, Bool.and_eq_true] at hk
      rcases hk with rfl | ⟨hb, rfl⟩
      · exact ⟨_, rfl, rfl, by simp⟩
      · subst hb; exact ⟨_, rfl, rfl, by simp⟩
    · exact absurd rfl h
  | _ => exact absurd rfl h

theorem binPrecedence_le {b t} : binPrecedence b t ≤ 11 := by
  cases t with
  | punct p => cases p <;> simp [binPrecedence, determinePrecedence]
  | keyword k => simp only [binPrecedence]; split <;> omega
  | _ => simp [binPrecedence]

theorem bin_mono {n m e o} (h : G C Γ (.bin n e) i o) (hm : m ≤ n) : G C Γ (.bin m e) i o := by
  cases h with
  | binOne h => exact .binOne h
  | bin h1 h2 h3 h4 h5 => exact .bin h1 h2 h3 (Nat.le_trans hm h4) h5

/-- The three vectors after reading `i` up to `o`; the last operand has the level `L`. -/
inductive Stk (C : Cfg) (Γ : Env) (i : List Tok) :
    List Tok → Nat → List Expr → List Token → List Nat → Prop
  | one {o L e} : G C Γ (.bin L e) i o → Stk C Γ i o L [e] [] []
  | push {t j o L q op e r stack ops precs} : Stk C Γ i (t :: j) q (e :: stack) ops precs →
      opOf t.item.token = some op → op.level = q → (Kw t .in → Γ.allowIn = true) → 0 < q →
      G C Γ (.bin L r) j o → q < L →
      Stk C Γ i o L (r :: e :: stack) (t.item.token :: ops) (q :: precs)

theorem Stk.replace {o o' L L' e e' stack ops precs} (h : Stk C Γ i o L (e :: stack) ops precs)
    (hL : L ≤ L') (he : ∀ k, G C Γ (.bin L e) k o → G C Γ (.bin L' e') k o') :
    Stk C Γ i o' L' (e' :: stack) ops precs := by
  cases h with
  | one h => exact .one (he _ h)
  | push h1 h2 h3 h4 h5 h6 h7 => exact .push h1 h2 h3 h4 h5 (he _ h6) (Nat.lt_of_lt_of_le h7 hL)

theorem Stk.lower {o L m stack ops precs} (h : Stk C Γ i o L stack ops precs) (hL : m ≤ L)
    (hq : ∀ q ∈ precs.head?, q < m) : Stk C Γ i o m stack ops precs := by
  cases h with
  | one h => exact .one (bin_mono h hL)
  | push h1 h2 h3 h4 h5 h6 h7 => exact .push h1 h2 h3 h4 h5 (bin_mono h6 hL) (hq _ rfl)

/-- Joining the last two operands. -/
theorem Stk.join {o L l r t stack ops precs q op}
    (h : Stk C Γ i o L (r :: l :: stack) (t :: ops) (q :: precs)) (ht : opOf t = some op) :
    Stk C Γ i o q (op.node l r :: stack) ops precs ∧ q < L ∧ 0 < q := by
  cases h with
  | push h1 h2 h3 h4 h5 h6 h7 =>
    rw [h2] at ht; cases ht
    subst h3
    exact ⟨h1.replace (Nat.le_refl _) fun k hk =>
      .bin hk h2 h4 (Nat.le_refl _) (bin_mono h6 h7), h7, h5⟩

theorem reduceWhile' {prec o L stack ops precs} (h : Stk C Γ i o L stack ops precs)
    (hL : prec ≤ L) :
    Run C Γ o (reduceWhile prec ops stack precs) fun st o' => o' = o ∧
      (∀ q ∈ st.precs.head?, q < prec) ∧
      ∃ L, prec ≤ L ∧ Stk C Γ i o L st.stack st.ops st.precs := by
  induction ops generalizing stack precs L with
  | nil =>
    cases h with
    | one h => unfold Ressa.reduceWhile; sx; exact ⟨rfl, by simp, _, hL, .one h⟩
  | cons t ops ih =>
    cases h with
    | push h1 h2 h3 h4 h5 h6 h7 =>
      unfold Ressa.reduceWhile
      sx
      · rename_i op hop
        obtain ⟨h8, h9, h10⟩ := Stk.join (.push h1 h2 rfl h4 h5 h6 h7) hop
        exact ih h8 ‹_›
      · exact ⟨rfl, by simp; omega, _, hL, .push h1 h2 rfl h4 h5 h6 h7⟩

theorem reduceAll' {o L e stack ops precs} (h : Stk C Γ i o L (e :: stack) ops precs)
    (hL : 0 < L) :
    Run C Γ o (reduceAll ops stack e) fun e o => G C Γ (.bin 1 e) i o := by
  induction ops generalizing stack precs L e with
  | nil =>
    cases h with
    | one h => unfold Ressa.reduceAll; sx; exact bin_mono h hL
  | cons t ops ih =>
    cases h with
    | push h1 h2 h3 h4 h5 h6 h7 =>
      unfold Ressa.reduceAll
      sx
      rename_i op hop
      obtain ⟨h8, h9, h10⟩ := Stk.join (.push h1 h2 rfl h4 h5 h6 h7) hop
      exact ih h8 h10

end Rn

namespace Kp

theorem reduceWhile {n ops stack precs} : Keeps (reduceWhile n ops stack precs) := by
  induction ops generalizing stack precs with
  | nil => unfold Ressa.reduceWhile; exact .pure
  | cons t ops ih =>
    unfold Ressa.reduceWhile
    split
    · next h =>
      cases h
      split
      · exact .never fun _ _ _ h => nomatch h
      · exact .ite (.bind (by kp) fun _ => ih) .pure
    · exact .pure

theorem reduceAll {ops stack e} : Keeps (reduceAll ops stack e) := by
  induction ops generalizing stack e with
  | nil => unfold Ressa.reduceAll; exact .pure
  | cons t ops ih =>
    unfold Ressa.reduceAll
    split
    · next h =>
      cases h
      exact .bind (by kp) fun _ => ih
    · exact .pure

end Kp

namespace Fl
variable [RecOk C R]

theorem binaryExpr : RunF C Γ f i (binaryExpr R) fun e g o => g = canBe e ∧ G C Γ (.bin 1 e) i o := by
  refine RunF.tight ?_
  unfold Ressa.binaryExpr
  sx
  · rename_i h1 h2 _ _ h3
    refine RunF.mono (Q := fun st g o => g = (false, false) ∧ Rn.Stk C Γ i o 12 st.stack st.ops st.precs)
      (RunF.of_keeps (by kp) ?_) ?_
    · refine Run.loopP (fun st o => Rn.Stk C Γ i o 12 st.stack st.ops st.precs) ?_ ?_
      · obtain ⟨op, h4, h5, h6⟩ := Rn.opOf_precedence (Nat.ne_of_gt h2)
        exact .push (.one (.binOne h1)) h4 h5 (fun h => h6 h) h2 (.binOne h3)
          (Nat.lt_of_le_of_lt Rn.binPrecedence_le (by omega))
      · intro st o h
        sx
        · assumption
        · rename_i hp
          refine (Rn.reduceWhile' h (Nat.le_trans Rn.binPrecedence_le (by omega))).mono ?_
          rintro st' o' ⟨rfl, h1, L, h2, h3⟩
          sx
          rename_i h4
          obtain ⟨op, h5, h6, h7⟩ := Rn.opOf_precedence hp
          obtain ⟨e, stack, hs⟩ : ∃ e stack, st'.stack = e :: stack := by
            obtain ⟨s1, s2, s3⟩ := st'
            cases h3 <;> exact ⟨_, _, rfl⟩
          rw [hs] at h3 ⊢
          exact .push (h3.lower h2 h1) h5 h6 (fun h => h7 h) (by omega) (.binOne h4)
            (Nat.lt_of_le_of_lt Rn.binPrecedence_le (by omega))
    · rintro st g o ⟨rfl, h⟩
      sx
      rename_i hs
      rw [hs] at h
      exact (RunF.of_keeps (by kp) (Rn.reduceAll' h (by omega))).mono
        fun _ _ _ h => ⟨h.1 ▸ Flags.bot_le, h.2⟩
  · exact ⟨Flags.and_le, .binOne ‹_›⟩

theorem conditionalExpr : RunF C Γ f i (conditionalExpr R) fun e g o =>
    g = canBe e ∧ G C Γ (.cond e) i o := by
  unfold Ressa.conditionalExpr
  sxf

theorem yieldExpr (hg : Γ.gen = C.exact) : RunF C Γ f i (yieldExpr R) fun e g o =>
    g = canBe e ∧ G C Γ (.assign e) i o := by
  have hΓ : Γ.yielding (!false && C.exact) = Γ := by
    cases Γ; simp_all [Env.yielding]
  refine RunF.tight ?_
  unfold Ressa.yieldExpr
  sx
  all_goals
    rw [hΓ] at *
    exact ⟨by fl, by gx⟩

end Fl

namespace Rn

theorem reinterpretArg {e} : Run C Γ i (reinterpretArg e) fun p o => o = i ∧
    reinterpretPat e = some p := by
  unfold Ressa.reinterpretArg
  sxg

theorem coverFormals {ps a} : Run C Γ i (coverFormals ps a) fun qs o => o = i ∧
    (ps.map (coverParam a)).any (·.2) = false ∧
    (Γ.strict = true → Γ.gen = true →
      (ps.map (coverParam a)).any (fun p => isYieldArg p.1) = false) ∧
    qs = ps.map fun p => (coverParam a p).1 := by
  unfold Ressa.coverFormals
  sxg

theorem assignOp {it} : Run C Γ i (assignOp it) fun op o => o = i ∧
    ∃ p, it.token = .punct p ∧ assignmentOperator p = some op := by
  unfold Ressa.assignOp
  sxg

theorem coverSource_async {e ps a} (h : coverSource e = some (ps, a)) : isAsyncExpr e = a := by
  cases e <;> simp_all [coverSource, isAsyncExpr]

theorem coverSource_none {e} (h : coverSource e = none) : isPlaceHolder e = false := by
  cases e <;> simp_all [coverSource, isPlaceHolder]

end Rn

namespace Fl
variable [RecOk C R]

omit [RecOk C R] in
theorem checkAssignTarget {e} : RunF C Γ f i (checkAssignTarget e) fun _ g o => g = f ∧ o = i ∧
    (f.1 = true ∨ C.tolerant = true) ∧ (Γ.strict = true → isStrictName e = false) := by
  unfold Ressa.checkAssignTarget
  sx
  all_goals refine ⟨rfl, rfl, by simp_all, fun h => ?_⟩
  · simp_all [isStrictName, Env.ctx]
  · cases e <;> simp_all [isStrictName]
  · simp_all [isStrictName, Env.ctx]
  · cases e <;> simp_all [isStrictName]

theorem arrowBody {ps a} : RunF C Γ (false, false) i (arrowBody R ps a) fun e g o =>
    g = canBe e ∧ ∃ t j, i = t :: j ∧ Is t .fatArrow ∧
    ((∃ l, G C (Γ.within true) (.body l) j o ∧ e = .arrowBlock ps l false false a) ∨
     (∃ b, G C Γ (.assign b) j o ∧ e = .arrowExpr ps b true false a)) := by
  refine RunF.tight ?_
  unfold Ressa.arrowBody
  sx
  · exact ⟨by fl, _, _, rfl, ‹_›, .inl ⟨_, ‹_›, rfl⟩⟩
  · exact ⟨by fl, _, _, rfl, ‹_›, .inr ⟨_, ‹_›, rfl⟩⟩

theorem arrowTail' {e i₀} (h : G C Γ (.arrowHead e) i₀ i)
    (h' : isPlaceHolder e = false → G C Γ (.cond e) i₀ i) :
    RunF C Γ f i (arrowTail R e) fun e g o => g = canBe e ∧ G C Γ (.assign e) i₀ o := by
  refine RunF.tight ?_
  unfold Ressa.arrowTail
  sx
  · exact ⟨by fl, .assignCond (h' (Rn.coverSource_none ‹_›)) (Rn.coverSource_none ‹_›)⟩
  · rename_i hc _ _ _ _ _ _ _ h
    obtain rfl := Rn.coverSource_async hc
    rcases h with ⟨l, hl, rfl⟩ | ⟨l, hl, rfl⟩
    · exact ⟨.refl, .arrowBlock ‹_› hc ‹_› ‹_› ‹_› hl⟩
    · exact ⟨.refl, .arrowExpr ‹_› hc ‹_› ‹_› ‹_› hl⟩

theorem assignTail' {e i₀} (h : G C Γ (.cond e) i₀ i) (h' : isPlaceHolder e = false)
    (hf : f.Le (canBe e)) :
    RunF C Γ f i (assignTail R e) fun e g o => g = canBe e ∧ G C Γ (.assign e) i₀ o := by
  refine RunF.tight ?_
  unfold Ressa.assignTail
  sx
  all_goals
    have : mayAssign e = true ∨ C.tolerant = true := Or.imp_left hf.1 ‹_›
    rename_i h1 _ p hp hq _ _ _
  · exact ⟨by fl, by gx⟩
  · refine ⟨?_, by gx⟩
    have : p = .assign := by have := hp.symm.trans h1; simpa using this
    subst this
    cases hq
    simpa only [canBe, cover] using hf

theorem asyncParam' {it l l' e i₀} (hi : itemIs i₀ it) (h : G C Γ (.cond e) i₀ i)
    (hf : f.Le (canBe e)) :
    RunF C Γ f i (asyncParam R it l l' e) fun e g o => g = canBe e ∧ G C Γ (.arrowHead e) i₀ o ∧
      (isPlaceHolder e = false → G C Γ (.cond e) i₀ o) := by
  refine RunF.tight ?_
  unfold Ressa.asyncParam
  sx
  · exact ⟨by fl, .arrowHeadAsync (by have := hi.text (C := C) (w := t!"async"); simp_all) h ‹_› ‹_›,
      by simp [isPlaceHolder]⟩
  · exact ⟨hf, .arrowHead h, fun _ => h⟩

theorem assignExpr : RunF C Γ f i (assignExpr R) fun e g o =>
    g = canBe e ∧ G C Γ (.assign e) i o := by
  unfold Ressa.assignExpr
  sx
  · simp_all [Env.ctx]
  · exact ⟨rfl, ‹_›⟩
  · refine (asyncParam' ‹_› ‹_› .refl).mono ?_
    sx
    · exact arrowTail' ‹_› ‹_›
    · exact assignTail' (by simp_all) (by simp_all) .refl
    · exact ⟨rfl, .assignCond (by simp_all) (by simp_all)⟩

end Fl

namespace Rn
variable [RecOk C R]

theorem objInit : Run C Γ i (objInit R) fun e o => G C Γ (.object e) i o :=
  Fl.objInit.toRun (c := fun e => (canBe e).and (true, true))

theorem arrayInit : Run C Γ i (arrayInit R) fun e o => G C Γ (.array e) i o := Fl.arrayInit.toRun

theorem primary : Run C Γ i (primary R) fun e o => G C Γ (.primary e) i o := Fl.primary.toRun

theorem lhsExpr : Run C Γ i (lhsExpr R) fun e o => G C Γ (.member e) i o ∧ memEnd o := Fl.lhsExpr.toRun

theorem updateExpr : Run C Γ i (updateExpr R) fun e o => G C Γ (.update e) i o :=
  Fl.updateExpr.toRun

theorem binaryExpr : Run C Γ i (binaryExpr R) fun e o => G C Γ (.bin 1 e) i o :=
  Fl.binaryExpr.toRun

theorem unaryExpr : Run C Γ i (unaryExpr R) fun e o => G C Γ (.unary e) i o := Fl.unaryExpr.toRun

theorem assignExpr : Run C Γ i (assignExpr R) fun e o => G C Γ (.assign e) i o :=
  Fl.assignExpr.toRun

theorem exprSeq_two {l : List Expr} {e j o} (h : G C Γ (.exprSeq l) j o) :
    2 ≤ (l ++ [e]).length := by
  cases h <;> simp

theorem expression : Run C Γ i (expression R) fun e o => G C Γ (.expression e) i o := by
  unfold Ressa.expression
  sx
  · refine Run.untilP (fun l o => G C Γ (.exprSeq l) _ o ∧ (2 ≤ l.length ∨ head o = .punct .comma))
      ⟨.exprFirst ‹_›, .inr ‹_›⟩ (fun _ => by tst) ?_ ?_
    · intro l o hl; sxg
    · intro l o hl; sx
      exact ⟨.exprMore ‹_› ‹_› ‹_›, .inl (exprSeq_two ‹_›)⟩
  · gx

end Rn

namespace Kp

theorem expression : Keeps (expression R) := by
  unfold Ressa.expression
  kp

end Kp
end Ressa
