import Verif.Props.Progress

/-!
# Settings (C07, C33)
-/

namespace Ressa

/-- The settings and the text, which no call changes. -/
structure SameSettings (s s' : St) : Prop where
  ext : s'.ext = s.ext
  tolerant : s'.tolerant = s.tolerant
  isModule : s'.isModule = s.isModule
  stream : s'.stream = s.stream
  lines : s'.lines = s.lines
  pendEnd : s'.pendEnd = s.pendEnd

theorem SameSettings.rfl {s : St} : SameSettings s s :=
  ⟨Eq.refl _, Eq.refl _, Eq.refl _, Eq.refl _, Eq.refl _, Eq.refl _⟩

theorem SameSettings.trans {a b c : St} (h : SameSettings a b) (k : SameSettings b c) :
    SameSettings a c :=
  ⟨k.ext.trans h.ext, k.tolerant.trans h.tolerant, k.isModule.trans h.isModule,
    k.stream.trans h.stream, k.lines.trans h.lines, k.pendEnd.trans h.pendEnd⟩

theorem Next.same {span ts s r} (h : Next span ts s r) :
    r.Sat (fun _ s' => SameSettings s s') (fun _ s' => SameSettings s s') True := by
  induction h with
  | eof => exact ⟨rfl, rfl, rfl, rfl, rfl, rfl⟩
  | after => exact ⟨rfl, rfl, rfl, rfl, rfl, rfl⟩
  | missing => exact ⟨rfl, rfl, rfl, rfl, rfl, rfl⟩
  | bad => trivial
  | badComment => exact ⟨rfl, rfl, rfl, rfl, rfl, rfl⟩
  | @comment _ _ _ _ _ _ _ _ r _ _ _ _ ih =>
    cases r with
    | ok a s' => exact ⟨ih.ext, ih.tolerant, ih.isModule, ih.stream, ih.lines, ih.pendEnd⟩
    | err a s' => exact ⟨ih.ext, ih.tolerant, ih.isModule, ih.stream, ih.lines, ih.pendEnd⟩
    | panic => trivial
    | diverge => exact ih
  | token => exact ⟨rfl, rfl, rfl, rfl, rfl, rfl⟩

/-- Settings never change. -/
def settingsSys : Sys where
  good _ := True
  inv _ := True
  ord := SameSettings
  errOk _ _ := True
  panicOk := True

theorem settingsSys_ok : SysOk settingsSys where
  refl _ := .rfl
  trans := .trans
  ctxInv _ _ := trivial
  ctxOrd _ := ⟨rfl, rfl, rfl, rfl, rfl, rfl⟩
  next {s} _ := by
    have := (nextItem_spec s).same
    revert this
    cases nextItem s with
    | ok a s' => exact fun h => ⟨trivial, h, trivial⟩
    | err a s' => exact fun h => ⟨trivial, h, trivial⟩
    | panic => exact fun _ => trivial
    | diverge => exact fun h => h
  look _ := trivial
  slice _ _ _ := ⟨trivial, fun _ _ => trivial⟩
  pos _ _ _ := trivial
  errPos _ _ _ _ := trivial
  peek _ _ _ := trivial
  reinterpret _ := trivial
  label _ _ := trivial
  fail _ := trivial
  template _ _ _ _ := ⟨fun _ => trivial, fun _ _ => trivial⟩
  regex _ _ _ := by split <;> intros <;> trivial

/-- The settings of a reachable state are those of the builder. -/
theorem reachable_settings {L : Lexer} {b : Builder} {s : St} (h : Reachable L b s) :
    s.ext = L.ext ∧ s.tolerant = b.tolerant ∧ s.isModule = b.isModule ∧ s.stream = b.js ∧
    s.lines = getLines b.js ∧ s.pendEnd = L.pendEnd b.js := by
  obtain ⟨_, _, h⟩ := Sys.reachable settingsSys_ok h trivial
  exact ⟨h.ext, h.tolerant, h.isModule, h.stream, h.lines, h.pendEnd⟩

/-! ## C07 -/

/-- C07: after any history, `parse` returns a module exactly when the builder asked for one. -/
theorem module_decides_variant {L : Lexer} {b : Builder} {s s' : St} {prog : Program}
    (hr : Reachable L b s) (h : parse s = .ok prog s') :
    (∃ parts, prog = if b.isModule then .mod parts else .script parts) := by
  obtain ⟨ps, _, _, rfl⟩ := (parse_ok_iff s s' prog).1 h
  have h' : Reachable L b s' := by
    obtain ⟨s0, h0, hc⟩ := hr
    exact ⟨s0, h0, .tail hc (.parseOk h)⟩
  exact ⟨ps, by rw [programOf, (reachable_settings h').2.2.1]⟩

/-- C07 on a module with an import. -/
example : Demo.parse [Demo.k .import, Demo.id t!"a", Demo.id t!"from", Demo.str t!"'m'"]
      (isModule := true) =
    .ok (.mod [.decl (.import ⟨[.default t!"a"], t!"'m'"⟩)]) := by
  kernel_rfl

/-! ## C33 -/

/-- C33: `Parser::new` is the builder with the default settings. -/
theorem new_eq_builder (L : Lexer) (text : Txt) :
    Parser.new L text = (Builder.new.setJs text).build L := rfl

/-- The calls of setters. -/
inductive Setter
  | tolerant (b : Bool)
  | module (b : Bool)
  | js (t : Txt)

/-- The effect of a setter. -/
def Setter.apply (b : Builder) : Setter → Builder
  | .tolerant v => b.setTolerant v
  | .module v => b.setModule v
  | .js t => b.setJs t

/-- C33: after any sequence of setter calls, each setting is the argument of the last call of its
own setter, or the default when there was none. -/
theorem last_setter_wins (cs : List Setter) :
    let b := cs.foldl Setter.apply Builder.new
    b.tolerant = ((cs.filterMap fun | .tolerant v => some v | _ => none).getLast?.getD false) ∧
    b.isModule = ((cs.filterMap fun | .module v => some v | _ => none).getLast?.getD false) ∧
    b.js = ((cs.filterMap fun | .js t => some t | _ => none).getLast?.getD []) := by
  have key : ∀ (cs : List Setter) (b : Builder),
      (cs.foldl Setter.apply b).tolerant =
        ((cs.filterMap fun | .tolerant v => some v | _ => none).getLast?.getD b.tolerant) ∧
      (cs.foldl Setter.apply b).isModule =
        ((cs.filterMap fun | .module v => some v | _ => none).getLast?.getD b.isModule) ∧
      (cs.foldl Setter.apply b).js =
        ((cs.filterMap fun | .js t => some t | _ => none).getLast?.getD b.js) := by
    intro cs
    induction cs with
    | nil => intro b; exact ⟨rfl, rfl, rfl⟩
    | cons c cs ih =>
      intro b
      obtain ⟨h1, h2, h3⟩ := ih (c.apply b)
      rw [List.foldl_cons, h1, h2, h3]
      cases c <;> refine ⟨?_, ?_, ?_⟩ <;>
        simp only [List.filterMap_cons, List.getLast?_cons, Option.getD_some] <;> rfl
  exact key cs Builder.new

end Ressa
