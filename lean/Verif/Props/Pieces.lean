import Verif.Props.Spacing
import Verif.Props.AfterErrors

/-!
# Programs are read in pieces (C59)

After any number of parts the parser goes on like a new parser of the text that is left.
-/

namespace Ressa
open Gr Tree

/-- No string is spelled `use strict`, without quotes. -/
def Quoted (text : Txt) (all : List Tok) : Prop :=
  ∀ t ∈ all, t.item.token = .string → ¬ Source text t t!"use strict"

theorem cfg_source {C : Cfg} {t : Tok} {w : Txt} (h : C.text t = w) (hw : w ≠ []) :
    Source C.stream t w := by
  unfold Cfg.text Cfg.textOf at h
  unfold Source
  cases hs : sliceB C.stream t.item.span.start t.item.span.stop with
  | none => rw [hs] at h; exact absurd h.symm hw
  | some w' => rw [hs] at h; simpa using h

theorem spell_mem {C ls i o} (h : Spell C ls i o) : ∀ l ∈ ls, ∃ t ∈ i, Spelled C l t := by
  induction h with
  | nil => simp
  | skip _ ih =>
    intro l hl
    obtain ⟨t, h1, h2⟩ := ih l hl
    exact ⟨t, .tail _ h1, h2⟩
  | take h _ ih =>
    intro l hl
    rcases List.mem_cons.1 hl with rfl | hl
    · exact ⟨_, .head _, h⟩
    · obtain ⟨t, h1, h2⟩ := ih l hl
      exact ⟨t, .tail _ h1, h2⟩

theorem spell_suffix {C ls i o} (h : Spell C ls i o) : o <:+ i := by
  induction h with
  | nil => exact List.suffix_refl _
  | skip _ ih => exact ih.trans (List.suffix_cons _ _)
  | take _ _ ih => exact ih.trans (List.suffix_cons _ _)

theorem parts_suffix {C Γ b ps i o} (h : Parts C Γ b ps i o) : o <:+ i := by
  induction h with
  | nil => exact List.suffix_refl _
  | dir _ hd _ ih => exact ih.trans (spell_suffix (leaves_of_G hd))
  | item _ _ hd _ ih => exact ih.trans (spell_suffix (leaves_of_G hd))

/-- A string literal has quotes. -/
theorem quoted_expr {text : Txt} {all : List Tok} (hok : ScannerOk text all) (hq : Quoted text all)
    {s w t} (hi : (posSys text all).inv s) (hd : s.foundEof = true → s.rest = [])
    (h : full.expression s = .ok (.literal (.string w)) t) : w ≠ t!"use strict" := by
  rintro rfl
  have hm : 1 ≤ mu s := by have := expression_consumes h; omega
  obtain ⟨pre, t', h1, h2⟩ := hi.1.look
  have hf : s.foundEof = false := by
    rw [Bool.eq_false_iff]; intro hf
    simp [mu, hf, hd hf] at hm
  have ha : At s.cfg (s.ctx.env) s.pend s :=
    { cfg := rfl, env := rfl, pend := rfl, eof := fun h => by rw [hf] at h; cases h
      get := nofun
      comments := fun x hx _ => by
        obtain ⟨raw, hraw, -⟩ := hok.items x (by rw [h1]; simp [hx])
        rw [hi.1.stream]
        exact Option.isSome_iff_exists.2 ⟨raw, hraw⟩ }
  obtain ⟨o, -, hG⟩ := full_ok.expression _ _ _ _ _ ha h
  have hsp : Spell s.cfg (Node.expr (.literal (.string t!"use strict"))).leaves s.pend o :=
    leaves_of_G hG
  obtain ⟨x, hx, hx1, hx2⟩ := spell_mem hsp (.string t!"use strict")
    (by simp [leaves_con, Node.kids, exprKids, leafOf, leaves_leaf])
  have hx2 : Source text x t!"use strict" := by
    rw [← hi.1.stream]; exact cfg_source (C := s.cfg) hx2 (by simp)
  rw [St.pend, hf] at hx
  rcases List.mem_cons.1 hx with rfl | hx
  · exact hq t' (by simp [h1]) (h2 ▸ hx1) (by unfold Source at hx2 ⊢; rw [← h2]; exact hx2)
  · exact hq x (by rw [h1]; simp [(List.mem_filter.1 hx).1]) hx1 hx2

/-! ## The next part resets the flags -/

/-- The state with the flags that the next statement sets. -/
def St.ready (s : St) : St :=
  { s with ctx := { s.ctx with pastProlog := true, isAssignmentTarget := true, isBindingElement := true } }

theorem statementListItem_reset (R : Rec) (s : St) : statementListItem R s =
    statementListItem R { s with ctx := { s.ctx with isAssignmentTarget := true, isBindingElement := true } } :=
  rfl

theorem listItem_reset (s : St) : full.listItem s =
    full.listItem { s with ctx := { s.ctx with isAssignmentTarget := true, isBindingElement := true } } := by
  have h : full.listItem = statementListItem full := congrArg Rec.listItem full_eq
  rw [h]
  exact statementListItem_reset _ s

theorem nextPart_item {s : St} (h : s.look.token ≠ .string) :
    nextPart s = full.listItem { s with ctx := { s.ctx with pastProlog := true } } := by
  have hs : s.look.token.isString = false := by
    cases ht : s.look.token <;> simp_all [Token.isString]
  have hc : P.and (readC (fun c => !c.pastProlog)) (lookIs (·.isString)) s = .ok false s := by
    cases hp : s.ctx.pastProlog <;>
      simp [P.and, readC, lookIs, bind_def, P.get, hp, hs]
  unfold nextPart
  rw [bind_def, hc]
  rfl

theorem nextPart_ready {s : St} (h : s.look.token ≠ .string) : nextPart s = nextPart s.ready := by
  rw [nextPart_item h, nextPart_item (s := s.ready) h, listItem_reset]
  rfl

theorem next_item {s : St} (he : s.look.token ≠ .eof) :
    next s = (do let part ← nextPart; return some part : P _) s := by
  have hs : s.look.token.isEof = false := by
    cases ht : s.look.token <;> simp_all [Token.isEof]
  have hc : lookIs (·.isEof) s = .ok false s := by
    simp [lookIs, P.get, hs]
  unfold next
  rw [bind_def, hc]
  rfl

theorem next_ready {s : St} (h : s.look.token ≠ .string) (he : s.look.token ≠ .eof) :
    next s = next s.ready := by
  rw [next_item he, next_item (s := s.ready) he, bind_def, bind_def, nextPart_ready h]

theorem until_item {s : St} {σ : Type} {body : σ → P σ} {x : σ} (he : s.look.token ≠ .eof) :
    untilP (lookIs (·.isEof)) body x s = match body x s with
      | .ok y s' => loopN (mu s) (fun x => do if ← lookIs (·.isEof) then pure (some x) else pure none)
          (fun x => do return .inl (← body x)) y s'
      | .err e s' => .err e s'
      | .panic => .panic
      | .diverge => .diverge := by
  have hs : s.look.token.isEof = false := by
    cases ht : s.look.token <;> simp_all [Token.isEof]
  have hc : (do if ← lookIs (·.isEof) then pure (some x) else pure none : P (Option σ)) s =
      .ok none s := by
    have hc : lookIs (·.isEof) s = .ok false s := by simp [lookIs, P.get, hs]
    rw [bind_def, hc]
    rfl
  unfold untilP loopP
  rw [loopN, bind_def, hc]
  dsimp only
  rw [bind_def, bind_def]
  cases body x s <;> rfl

theorem parse_ready {s : St} (h : s.look.token ≠ .string) (he : s.look.token ≠ .eof) :
    parse s = parse s.ready := by
  unfold parse
  rw [bind_def, bind_def, until_item he, until_item (s := s.ready) he, bind_def, bind_def,
    nextPart_ready h]
  rfl

/-- The first call is not `parse_expression`. -/
def FirstPart : List Reply → Prop
  | .exprOk _ :: _ => False
  | .exprErr _ :: _ => False
  | _ => True

theorem session_ready {s : St} (h : s.look.token ≠ .string) (he : s.look.token ≠ .eof)
    {r rs s'} (hf : FirstPart (r :: rs)) : Session s (r :: rs) s' ↔ Session s.ready (r :: rs) s' := by
  have h1 := next_ready h he
  have h2 := parse_ready h he
  constructor
  · intro hs
    cases hs with
    | nextOk k hs => exact .nextOk (h1 ▸ k) hs
    | nextErr k hs => exact .nextErr (h1 ▸ k) hs
    | parseOk k hs => exact .parseOk (h2 ▸ k) hs
    | parseErr k hs => exact .parseErr (h2 ▸ k) hs
    | exprOk => exact hf.elim
    | exprErr => exact hf.elim
  · intro hs
    cases hs with
    | nextOk k hs => exact .nextOk (h1 ▸ k) hs
    | nextErr k hs => exact .nextErr (h1 ▸ k) hs
    | parseOk k hs => exact .parseOk (h2 ▸ k) hs
    | parseErr k hs => exact .parseErr (h2 ▸ k) hs
    | exprOk => exact hf.elim
    | exprErr => exact hf.elim

theorem firstPart_alike {place rs rs'} (h : RepliesAlike place rs rs') (hf : FirstPart rs) :
    FirstPart rs' := by
  cases h with
  | nil => trivial
  | cons h _ => cases h <;> trivial

/-! ## The end of a scan -/

theorem ScannerOk.suffix {text : Txt} {all pre : List Tok} {t : Tok} {ts : List Tok}
    (h : ScannerOk text all) (e : all = pre ++ t :: ts) : ScannerOk text (t :: ts) where
  items x hx := h.items x (by rw [e]; exact List.mem_append_right _ hx)
  ordered := (List.pairwise_append.1 (e ▸ h.ordered)).2.1
  last := by
    obtain ⟨body, z, hb, hz, hn⟩ := h.last
    have hne : t :: ts ≠ [] := by simp
    have h1 : t :: ts = (t :: ts).dropLast ++ [(t :: ts).getLast hne] :=
      (List.dropLast_append_getLast hne).symm
    have h2 := e.symm.trans hb
    rw [h1, ← List.append_assoc] at h2
    obtain ⟨h3, h4⟩ := List.append_inj' h2 rfl
    refine ⟨(t :: ts).dropLast, z, ?_, hz, fun x hx => hn x (by rw [← h3]; simp [hx])⟩
    rw [← h4]
    exact h1

/-! ## The state between two parts -/

theorem Collects.calls {s ps s'} (h : Collects s ps s') : Calls s s' := by
  have key : ∀ {s ps s'}, Collects s ps s' → ∀ {s0}, Calls s0 s → Calls s0 s' := by
    intro s ps s' h
    induction h with
    | nil => exact id
    | cons h _ ih => exact fun k => ih (.tail k (.nextOk h))
  exact key h .refl

/-- What is known of a parser between two parts. -/
structure Between (L : Lexer) (tolerant isModule : Bool) (text : Txt) (t : Tok) (s : St) : Prop where
  ext : s.ext = L.ext
  tolerant : s.tolerant = tolerant
  isModule : s.isModule = isModule
  pendEnd : s.pendEnd = L.pendEnd text
  foundEof : s.foundEof = false
  look : s.look = t.item
  inv : (posSys text (t :: s.rest)).inv s
  frame : s.ctx.frame = Ctx.default.frame
  allowYield : s.ctx.allowYield = true
  nl : s.ctx.hasLineTerm = t.nl
  visible : t.item.token.isComment = false

theorem between {L : Lexer} {tolerant isModule : Bool} {text : Txt} {s0 s : St}
    {ps : List ProgramPart} {pre : List Tok} {t : Tok}
    (hlf : Breaks text (L.scan text)) (hok : ScannerOk text (L.scan text))
    (hg : NoGet L ⟨tolerant, isModule, text⟩)
    (hb : Builder.build ⟨tolerant, isModule, text⟩ L = .ok () s0) (hc : Collects s0 ps s)
    (hs : L.scan text = pre ++ t :: s.rest) (he : t.item.token ≠ .eof) :
    Between L tolerant isModule text t s := by
  have hi := reachable_tracked (b := ⟨tolerant, isModule, text⟩) hlf hok ⟨s0, hb, hc.calls⟩
  obtain ⟨pre', t', h1, h2⟩ := hi.1.look
  have htt : t' = t := by
    have := List.append_inj' (h1.symm.trans hs) (by simp)
    exact (List.cons.inj this.2).1
  subst htt
  obtain ⟨o, ha, hP⟩ := collects_sound (build_at_exact (b := ⟨tolerant, isModule, text⟩) true
    (fun _ x hx => hg.text x (List.mem_filter.1 hx).1) hok hb) hc
  have hf : s.foundEof = false := by
    rw [Bool.eq_false_iff]
    exact fun hf => he (by rw [← h2]; exact (ha.eof hf).1)
  have hsuf := parts_suffix hP
  have hp := ha.pend
  rw [St.pend, hf] at hp
  simp only [Bool.false_eq_true, if_false] at hp
  rw [← hp] at hsuf
  have hv : t'.item.token.isComment = false := by
    have := (List.mem_filter.1 (hsuf.subset (.head _))).2
    rw [← h2]
    simpa using this
  have hnl : s.ctx.hasLineTerm = t'.nl := by
    obtain ⟨z, hz⟩ := hsuf
    have hz : z ++ _ = ((L.scan text).filter fun t => !t.item.token.isComment) := hz
    rw [hs, List.filter_append, List.filter_cons_of_pos (by simp [hv])] at hz
    have := (List.cons.inj (List.append_inj' hz (by simp)).2).1
    exact congrArg Tok.nl this
  have hcfg := ha.cfg
  exact
    { ext := congrArg Cfg.ext hcfg, tolerant := congrArg Cfg.tolerant hcfg
      isModule := congrArg Cfg.isModule hcfg, pendEnd := congrArg Cfg.pendEnd hcfg
      foundEof := hf, look := h2
      inv := ⟨⟨hi.1.stream, hi.1.lines, [], t', rfl, h2⟩, hi.2⟩
      frame := (collects_keeps_context hc).trans (build_frame hb)
      allowYield := by simpa [Ctx.env, Env.top] using congrArg Env.gen ha.env
      nl := hnl, visible := hv }

theorem Between.ctx {L : Lexer} {tolerant isModule : Bool} {text : Txt} {t : Tok} {s : St}
    (h : Between L tolerant isModule text t s) : s.ready.ctx = { Ctx.default with
      firstCovert := s.ctx.firstCovert, allowStrictDirective := s.ctx.allowStrictDirective
      hasLineTerm := t.nl, pastProlog := true, isAssignmentTarget := true
      isBindingElement := true } := by
  have h1 := h.frame
  have h2 := h.allowYield
  have h3 := h.nl
  simp only [St.ready]
  revert h1 h2 h3
  cases s.ctx
  simp only [Ctx.frame, Ctx.default, Frame.mk.injEq, and_imp]
  intros
  subst_vars
  rfl

theorem Between.alike {L : Lexer} {tolerant isModule : Bool} {text text' : Txt} {t t' : Tok}
    {s s' : St} (h : Between L tolerant isModule text t s)
    (h' : Between L tolerant isModule text' t' s')
    (H : SameTokens text (t :: s.rest) text' (t' :: s'.rest))
    (hp : L.pendEnd text' = L.pendEnd text) :
    (twin ⟨True, s.curPos, s'.curPos, s.comments.map (fun c => (c.1, c.2.1)),
      s'.comments.map (fun c => (c.1, c.2.1))⟩ text (t :: s.rest) text' (t' :: s'.rest)).R
      s.ready s'.ready := by
  have h0 : SamePlace (t :: s.rest) (t' :: s'.rest) t t' := ⟨0, rfl, rfl⟩
  refine ⟨⟨h'.ext.trans h.ext.symm, h'.tolerant.trans h.tolerant.symm,
    h'.isModule.trans h.isModule.symm, (h'.pendEnd.trans hp).trans h.pendEnd.symm,
    h'.foundEof.trans h.foundEof.symm, ⟨1, rfl, rfl⟩, ?_, .inl ⟨rfl, rfl⟩,
    ⟨[], (List.append_nil _).symm, (List.append_nil _).symm⟩⟩, ⟨t, t', h0, h.look, h'.look⟩,
    ⟨⟨h.inv.1.stream, h.inv.1.lines, h.inv.1.look⟩, ⟨h.inv.2.look, h.inv.2.cur⟩⟩,
    ⟨⟨h'.inv.1.stream, h'.inv.1.lines, h'.inv.1.look⟩, ⟨h'.inv.2.look, h'.inv.2.cur⟩⟩,
    fun hf => absurd (show s'.foundEof = true from hf) (by simp [h'.foundEof])⟩
  refine ⟨s'.ctx.firstCovert, s'.ctx.allowStrictDirective, ?_, .inr trivial⟩
  rw [h'.ctx, h.ctx, H.nl h0]

/-! ## The property -/

/-- C59: take two parsers, each of which has returned some parts of its text, and let the items that
are left in front of them be the same.  Whatever calls on the first parser return from now on, the same
calls on the second return too, with errors at the same items, and the handlers get the same further
comments: nothing but the items left matters.  The first of the calls is not `parse_expression`, the
first item left is not a string, and no item is `get`. -/
theorem pieces_alike {L : Lexer} {tolerant isModule : Bool} {text text' : Txt}
    (hlf : Breaks text (L.scan text)) (hlf' : Breaks text' (L.scan text'))
    (hok : ScannerOk text (L.scan text)) (hok' : ScannerOk text' (L.scan text'))
    (hn : NoLeadingBreak text (L.scan text)) (hn' : NoLeadingBreak text' (L.scan text'))
    (hg : NoGet L ⟨tolerant, isModule, text⟩) (hg' : NoGet L ⟨tolerant, isModule, text'⟩)
    (hq' : Quoted text' (L.scan text')) (hp : L.pendEnd text' = L.pendEnd text)
    {s0 s t0 t : St} {ps qs : List ProgramPart} {pre pre' : List Tok} {x x' : Tok}
    (hb : Builder.build ⟨tolerant, isModule, text⟩ L = .ok () s0) (hc : Collects s0 ps s)
    (hb' : Builder.build ⟨tolerant, isModule, text'⟩ L = .ok () t0) (hc' : Collects t0 qs t)
    (hs : L.scan text = pre ++ x :: s.rest) (hs' : L.scan text' = pre' ++ x' :: t.rest)
    (H : SameTokens text (x :: s.rest) text' (x' :: t.rest))
    (hx : x.item.token ≠ .eof) (hx' : x.item.token ≠ .string)
    {rs : List Reply} {s1 : St} (hr : Session s rs s1) (hf : FirstPart rs) :
    ∃ t1 rs', Session t rs' t1 ∧
      RepliesAlike (fun p p' => p = s.curPos ∧ p' = t.curPos ∨
        PosAlike text (x :: s.rest) text' (x' :: t.rest) p p') rs rs' ∧
      ∃ cs, s1.comments.map (fun c => (c.1, c.2.1)) = s.comments.map (fun c => (c.1, c.2.1)) ++ cs ∧
        t1.comments.map (fun c => (c.1, c.2.1)) = t.comments.map (fun c => (c.1, c.2.1)) ++ cs := by
  cases rs with
  | nil =>
    cases hr
    exact ⟨t, [], .nil, .nil, [], by simp, by simp⟩
  | cons r rs =>
    have m1 : ∀ y ∈ x :: s.rest, y ∈ L.scan text := fun y hy => by
      rw [hs]; exact List.mem_append_right _ hy
    have m2 : ∀ y ∈ x' :: t.rest, y ∈ L.scan text' := fun y hy => by
      rw [hs']; exact List.mem_append_right _ hy
    have hk : x'.item.token = x.item.token := H.kind ⟨0, rfl, rfl⟩
    have b1 := between hlf hok hg hb hc hs hx
    have b2 := between hlf' hok' hg' hb' hc' hs' (hk ▸ hx)
    obtain ⟨rs', t1, k1, k2, k3⟩ := Twin.session (twin_ok (A := ⟨True, s.curPos, t.curPos, _, _⟩) H
      (hlf.mono m1) (hlf'.mono m2) (hok.suffix hs) (hok'.suffix hs')
      (fun y hy => hn y (m1 y hy)) (fun y hy => hn' y (m2 y hy))
      (fun _ => quoted_expr (hok'.suffix hs') (fun y hy => hq' y (m2 y hy))))
      ((session_ready (b1.look ▸ hx') (b1.look ▸ hx) hf).1 hr) t.ready (b1.alike b2 H hp)
    have k4 := repliesAlike k2
    obtain ⟨cs, c1, c2⟩ := k3.1.comments
    refine ⟨t1, rs', ?_, k4, cs, c1, c2⟩
    have hf' := firstPart_alike k4 hf
    cases rs' with
    | nil => cases k4
    | cons r' rs' =>
      exact (session_ready (b2.look ▸ hk ▸ hx') (b2.look ▸ hk ▸ hx) hf').2 k1

theorem SamePlace.mem {all all' : List Tok} {t t' : Tok} (h : SamePlace all all' t t') :
    t ∈ all ∧ t' ∈ all' := by
  obtain ⟨k, h1, h2⟩ := h
  exact ⟨List.mem_of_getElem? h1, List.mem_of_getElem? h2⟩

theorem SameTokens.partner {text all text' all'} (H : SameTokens text all text' all') {t' : Tok}
    (h : t' ∈ all') : ∃ t, SamePlace all all' t t' := by
  obtain ⟨k, hk, e⟩ := List.mem_iff_getElem.1 h
  have hk' : k < all.length := by have := H.length; omega
  exact ⟨all[k], k, List.getElem?_eq_getElem hk', by rw [List.getElem?_eq_getElem hk, e]⟩

theorem updatePositions_cur {stream : Txt} {q : Position} {span : Span} {n : Nat}
    {c : Position × Position} (h : updatePositions stream q span n = some c) : c.1 = q := by
  unfold updatePositions at h
  cases h1 : sliceB stream span.start n with
  | none => simp [h1] at h
  | some prev =>
    cases h2 : sliceB stream span.stop n with
    | none => simp [h1, h2] at h
    | some ws =>
      simp only [h1, h2, Option.bind_eq_bind, Option.bind_some] at h
      split at h
      · cases h
      · split at h <;> (cases h; rfl)

/-- A new parser stands in front of the first item, if that is not a comment. -/
theorem build_rest {L : Lexer} {b : Builder} {s : St} {x : Tok} {xs : List Tok}
    (hx : x.item.token.isComment = false) (hs : L.scan b.js = x :: xs) (h : b.build L = .ok () s) :
    s.rest = xs ∧ s.curPos = ⟨1, 0⟩ ∧ s.comments = [] := by
  obtain ⟨i, s1, h1, h2⟩ := bind_eq_ok.1 (show skipItem (b.init L) = .ok () s from h)
  cases h2
  have h1 : nextItemGo noItem.span (L.scan b.js) (b.init L) = .ok i s := h1
  rw [hs, Cut.nextItemGo_token hx] at h1
  revert h1
  cases hu : updatePositions (b.init L).stream (b.init L).lookPos noItem.span x.item.span.start with
  | none => nofun
  | some c =>
    intro h1
    cases h1
    refine ⟨rfl, ?_, rfl⟩
    exact updatePositions_cur hu

/-- C59: what a parser returns after any number of parts is what a new parser returns whose text has
just the items that are left. -/
theorem rest_is_text {L : Lexer} {tolerant isModule : Bool} {text text' : Txt}
    (hlf : Breaks text (L.scan text)) (hlf' : Breaks text' (L.scan text'))
    (hok : ScannerOk text (L.scan text)) (hok' : ScannerOk text' (L.scan text'))
    (hn : NoLeadingBreak text (L.scan text)) (hn' : NoLeadingBreak text' (L.scan text'))
    (hg : NoGet L ⟨tolerant, isModule, text⟩) (hq : Quoted text (L.scan text))
    (hp : L.pendEnd text' = L.pendEnd text)
    {s0 s : St} {ps : List ProgramPart} {pre : List Tok} {x : Tok}
    (hb : Builder.build ⟨tolerant, isModule, text⟩ L = .ok () s0) (hc : Collects s0 ps s)
    (hs : L.scan text = pre ++ x :: s.rest)
    (H : SameTokens text (x :: s.rest) text' (L.scan text'))
    (hx : x.item.token ≠ .eof) (hx' : x.item.token ≠ .string) :
    ∃ t0, Builder.build ⟨tolerant, isModule, text'⟩ L = .ok () t0 ∧
      (∀ rs s1, FirstPart rs → Session s rs s1 → ∃ t1 rs', Session t0 rs' t1 ∧
        RepliesAlike (fun p p' => p = s.curPos ∧ p' = ⟨1, 0⟩ ∨
          PosAlike text (x :: s.rest) text' (L.scan text') p p') rs rs' ∧
        s1.comments.map (fun c => (c.1, c.2.1)) =
          s.comments.map (fun c => (c.1, c.2.1)) ++ t1.comments.map (fun c => (c.1, c.2.1))) ∧
      ∀ p, (∃ s1, parse s = .ok p s1) ↔ ∃ t1, parse t0 = .ok p t1 := by
  have hv := (between hlf hok hg hb hc hs hx).visible
  obtain ⟨t0, hb', -⟩ := build_reading (b := ⟨tolerant, isModule, text'⟩) hok'
  cases hs' : L.scan text' with
  | nil => rw [hs'] at H; cases H.length
  | cons x' xs' =>
    have hk : x'.item.token = x.item.token := H.kind (by rw [hs']; exact ⟨0, rfl, rfl⟩)
    obtain ⟨e1, e2, e3⟩ := build_rest (b := ⟨tolerant, isModule, text'⟩) (hk ▸ hv) hs' hb'
    subst e1
    have m1 : ∀ y ∈ x :: s.rest, y ∈ L.scan text := fun y hy => by
      rw [hs]; exact List.mem_append_right _ hy
    have hg' : NoGet L ⟨tolerant, isModule, text'⟩ := by
      intro y' hy' hy
      obtain ⟨y, h⟩ := H.partner hy'
      exact hg y (m1 _ h.mem.1) ((H.slice h).symm.trans hy)
    have hq' : Quoted text' (L.scan text') := by
      intro y' hy' hk hy
      obtain ⟨y, h⟩ := H.partner hy'
      exact hq y (m1 _ h.mem.1) ((H.kind h).symm.trans hk) ((H.slice h).symm.trans hy)
    rw [hs'] at H
    have fwd := fun {rs s1} (hr : Session s rs s1) (hf : FirstPart rs) =>
      pieces_alike hlf hlf' hok hok' hn hn' hg hg' hq' hp hb hc hb' .nil hs
        (pre' := []) hs' H hx hx' hr hf
    have bwd := fun {rs s1} (hr : Session t0 rs s1) (hf : FirstPart rs) =>
      pieces_alike hlf' hlf hok' hok hn' hn hg' hg hq hp.symm hb' .nil hb hc
        (pre := []) hs' hs H.symm (hk ▸ hx) (hk ▸ hx') hr hf
    refine ⟨t0, hb', ?_, fun p => ⟨?_, ?_⟩⟩
    · intro rs s1 hf hr
      obtain ⟨t1, rs', k1, k2, cs, c1, c2⟩ := fwd hr hf
      rw [e2] at k2
      rw [e3] at c2
      exact ⟨t1, rs', k1, k2, by rw [c1, c2]; rfl⟩
    · rintro ⟨s1, hp⟩
      obtain ⟨t1, rs', k1, k2, -⟩ := fwd (.parseOk hp .nil) trivial
      cases k2 with
      | cons h k2 =>
        cases h
        cases k1 with
        | parseOk h _ => exact ⟨_, h⟩
    · rintro ⟨s1, hp⟩
      obtain ⟨t1, rs', k1, k2, -⟩ := bwd (.parseOk hp .nil) trivial
      cases k2 with
      | cons h k2 =>
        cases h
        cases k1 with
        | parseOk h _ => exact ⟨_, h⟩

theorem Collects.append {s ps s1 qs s2} (h : Collects s ps s1) (k : Collects s1 qs s2) :
    Collects s (ps ++ qs) s2 := by
  induction h with
  | nil => exact k
  | cons h _ ih => exact .cons h (ih k)

theorem Collects.split {s ps s1 qs s2} (h : Collects s ps s1) (k : Collects s (ps ++ qs) s2) :
    Collects s1 qs s2 := by
  induction h with
  | nil => exact k
  | cons h _ ih =>
    cases k with
    | cons k1 k2 =>
      rw [h] at k1
      cases k1
      exact ih k2

/-- C59 for `parse`: a text some parts of which have been read is a program that goes on with the parts
`qs` just if a text with the items left is a program with the parts `qs`. -/
theorem program_in_pieces {L : Lexer} {tolerant isModule : Bool} {text text' : Txt}
    (hlf : Breaks text (L.scan text)) (hlf' : Breaks text' (L.scan text'))
    (hok : ScannerOk text (L.scan text)) (hok' : ScannerOk text' (L.scan text'))
    (hn : NoLeadingBreak text (L.scan text)) (hn' : NoLeadingBreak text' (L.scan text'))
    (hg : NoGet L ⟨tolerant, isModule, text⟩) (hq : Quoted text (L.scan text))
    (hp : L.pendEnd text' = L.pendEnd text)
    {s0 s : St} {ps : List ProgramPart} {pre : List Tok} {x : Tok}
    (hb : Builder.build ⟨tolerant, isModule, text⟩ L = .ok () s0) (hc : Collects s0 ps s)
    (hs : L.scan text = pre ++ x :: s.rest)
    (H : SameTokens text (x :: s.rest) text' (L.scan text'))
    (hx : x.item.token ≠ .eof) (hx' : x.item.token ≠ .string) (qs : List ProgramPart) :
    (∃ s1, parse s0 = .ok (if isModule then .mod (ps ++ qs) else .script (ps ++ qs)) s1) ↔
      ∃ t0 t1, Builder.build ⟨tolerant, isModule, text'⟩ L = .ok () t0 ∧
        parse t0 = .ok (if isModule then .mod qs else .script qs) t1 := by
  obtain ⟨t0, hb', -, key⟩ := rest_is_text hlf hlf' hok hok' hn hn' hg hq hp hb hc hs H hx hx'
  have hm : ∀ {qs s1}, Collects s0 qs s1 → s1.isModule = isModule := fun h => by
    obtain ⟨o, ha, -⟩ := collects_sound (build_at (b := ⟨tolerant, isModule, text⟩) hok hb) h
    exact congrArg Cfg.isModule ha.cfg
  have inj : ∀ {s1 : St} {a c : List ProgramPart}, s1.isModule = isModule →
      (if isModule then Program.mod a else .script a) = programOf s1 c → a = c := by
    intro s1 a c h e
    rw [programOf, h] at e
    cases isModule <;> simpa using e
  have step : (∃ s1, parse s0 = .ok (if isModule then .mod (ps ++ qs) else .script (ps ++ qs)) s1) ↔
      ∃ s1, parse s = .ok (if isModule then .mod qs else .script qs) s1 := by
    constructor
    · rintro ⟨s1, h⟩
      obtain ⟨rs, h1, h2, h3⟩ := (parse_ok_iff _ _ _).1 h
      have h4 := inj (hm h1) h3
      subst h4
      refine ⟨s1, (parse_ok_iff _ _ _).2 ⟨qs, hc.split h1, h2, ?_⟩⟩
      rw [programOf, hm h1]
    · rintro ⟨s1, h⟩
      obtain ⟨rs, h1, h2, h3⟩ := (parse_ok_iff _ _ _).1 h
      have h5 := hc.append h1
      have h4 := inj (hm h5) h3
      subst h4
      refine ⟨s1, (parse_ok_iff _ _ _).2 ⟨_, h5, h2, ?_⟩⟩
      rw [programOf, hm h5]
  rw [step, key]
  constructor
  · rintro ⟨t1, h⟩
    exact ⟨t0, t1, hb', h⟩
  · rintro ⟨t0', t1, h, h'⟩
    rw [hb'] at h
    cases h
    exact ⟨t1, h'⟩

/-- Two statements. -/
def pieceText : Txt := t!"a;b"
/-- The second of them. -/
def pieceText' : Txt := t!" b"

/-- A scanner of both. -/
def pieceLexer : Lexer where
  ext := Demo.ext
  scan t := if t = pieceText then
      [⟨false, .ident, 0, 1⟩, ⟨false, .punct .semiColon, 1, 2⟩, ⟨false, .ident, 2, 3⟩,
        ⟨false, .eof, 3, 3⟩]
    else [⟨false, .ident, 1, 2⟩, ⟨false, .eof, 2, 2⟩]
  pendEnd _ := false

/-- A new parser of the first text. -/
def pieceStart : St := match Builder.build ⟨false, false, pieceText⟩ pieceLexer with
  | .ok _ s => s
  | _ => Builder.init ⟨false, false, pieceText⟩ pieceLexer

/-- The parser after the first statement. -/
def pieceState : St := match next pieceStart with
  | .ok _ s => s
  | _ => pieceStart

/-- The parser after both. -/
def pieceEnd : St := match parse pieceStart with
  | .ok _ s => s
  | _ => pieceStart

/-- The first statement. -/
def piecePart : ProgramPart := .stmt (.expr (.ident t!"a"))

theorem piece_collects : Collects pieceStart [piecePart] pieceState :=
  .cons (by kernel_rfl) .nil

theorem piece_place {t t' : Tok}
    (h : SamePlace [⟨false, .ident, 2, 3⟩, ⟨false, .eof, 3, 3⟩] (pieceLexer.scan pieceText') t t') :
    (t = ⟨false, .ident, 2, 3⟩ ∧ t' = ⟨false, .ident, 1, 2⟩) ∨
      (t = ⟨false, .eof, 3, 3⟩ ∧ t' = ⟨false, .eof, 2, 2⟩) := by
  obtain ⟨k, h1, h2⟩ := h
  rcases k with _ | _ | k
  all_goals first
    | (cases h1; done)
    | (cases Option.some.inj h1; cases Option.some.inj h2; simp)

theorem piece_same : SameTokens pieceText [⟨false, .ident, 2, 3⟩, ⟨false, .eof, 3, 3⟩] pieceText'
    (pieceLexer.scan pieceText') where
  length := rfl
  nl h := by rcases piece_place h with ⟨rfl, rfl⟩ | ⟨rfl, rfl⟩ <;> rfl
  kind h := by rcases piece_place h with ⟨rfl, rfl⟩ | ⟨rfl, rfl⟩ <;> rfl
  slice h := by rcases piece_place h with ⟨rfl, rfl⟩ | ⟨rfl, rfl⟩ <;> decide
  line h k h1 h2 k1 k2 := by
    have key : ∀ {t t' p p'}, SamePlace [⟨false, .ident, 2, 3⟩, ⟨false, .eof, 3, 3⟩]
        (pieceLexer.scan pieceText') t t' → PosAt pieceText t.item.span.start p →
        PosAt pieceText' t'.item.span.start p' → p.line = 1 ∧ p'.line = 1 := by
      intro t t' p p' h k k'
      rcases piece_place h with ⟨rfl, rfl⟩ | ⟨rfl, rfl⟩
      · rw [posAt_of t!"a;" _ rfl rfl k, posAt_of t!" " _ rfl rfl k']; decide
      · rw [posAt_of t!"a;b" [] rfl rfl k, posAt_of t!" b" [] rfl rfl k']; decide
    have := key h h1 h2
    have := key k k1 k2
    omega

theorem piece_scan : pieceLexer.scan pieceText = [⟨false, .ident, 0, 1⟩,
    ⟨false, .punct .semiColon, 1, 2⟩, ⟨false, .ident, 2, 3⟩, ⟨false, .eof, 3, 3⟩] := rfl

theorem piece_scan' : pieceLexer.scan pieceText' = [⟨false, .ident, 1, 2⟩, ⟨false, .eof, 2, 2⟩] := rfl

/-- C59 on `a;b`: after `a;` the items left are those of ` b`, and the hypotheses hold. -/
example : (∃ t0 t1, Builder.build ⟨false, false, pieceText'⟩ pieceLexer = .ok () t0 ∧
    parse t0 = .ok (.script [.stmt (.expr (.ident t!"b"))]) t1) := by
  have hb : Builder.build ⟨false, false, pieceText⟩ pieceLexer = .ok () pieceStart := by kernel_rfl
  have hp : parse pieceStart =
      .ok (.script ([piecePart] ++ [.stmt (.expr (.ident t!"b"))])) pieceEnd := by kernel_rfl
  have hr : pieceState.rest = [⟨false, .eof, 3, 3⟩] := by kernel_rfl
  have hs : pieceLexer.scan pieceText =
      [⟨false, .ident, 0, 1⟩, ⟨false, .punct .semiColon, 1, 2⟩] ++
        ⟨false, .ident, 2, 3⟩ :: pieceState.rest := by rw [hr]; rfl
  have h1 : ScannerOk pieceText (pieceLexer.scan pieceText) := by
    rw [piece_scan]
    refine ⟨?_, by simp, [⟨false, .ident, 0, 1⟩, ⟨false, .punct .semiColon, 1, 2⟩,
      ⟨false, .ident, 2, 3⟩], ⟨false, .eof, 3, 3⟩, rfl, rfl, by simp⟩
    intro t ht
    simp only [List.mem_cons, List.not_mem_nil, or_false] at ht
    rcases ht with rfl | rfl | rfl | rfl <;> exact ⟨_, rfl, trivial⟩
  have h2 : ScannerOk pieceText' (pieceLexer.scan pieceText') := by
    rw [piece_scan']
    refine ⟨?_, by simp, [⟨false, .ident, 1, 2⟩], ⟨false, .eof, 2, 2⟩, rfl, rfl, by simp⟩
    intro t ht
    simp only [List.mem_cons, List.not_mem_nil, or_false] at ht
    rcases ht with rfl | rfl <;> exact ⟨_, rfl, trivial⟩
  have h3 : NoLeadingBreak pieceText (pieceLexer.scan pieceText) := by
    rw [piece_scan]
    intro t ht
    simp only [List.mem_cons, List.not_mem_nil, or_false] at ht
    rcases ht with rfl | rfl | rfl | rfl
    · exact noBreak_of [] t!"a;b" rfl rfl (by decide)
    · exact noBreak_of t!"a" t!";b" rfl rfl (by decide)
    · exact noBreak_of t!"a;" t!"b" rfl rfl (by decide)
    · exact noBreak_of t!"a;b" [] rfl rfl (by decide)
  have h4 : NoLeadingBreak pieceText' (pieceLexer.scan pieceText') := by
    rw [piece_scan']
    intro t ht
    simp only [List.mem_cons, List.not_mem_nil, or_false] at ht
    rcases ht with rfl | rfl
    · exact noBreak_of t!" " t!"b" rfl rfl (by decide)
    · exact noBreak_of t!" b" [] rfl rfl (by decide)
  have h5 : NoGet pieceLexer ⟨false, false, pieceText⟩ := by
    intro t ht
    rw [show pieceLexer.scan (Builder.js ⟨false, false, pieceText⟩) = _ from piece_scan] at ht
    simp only [List.mem_cons, List.not_mem_nil, or_false] at ht
    unfold Source
    rcases ht with rfl | rfl | rfl | rfl <;> decide
  have h6 : Quoted pieceText (pieceLexer.scan pieceText) := by
    intro t ht hk
    rw [piece_scan] at ht
    simp only [List.mem_cons, List.not_mem_nil, or_false] at ht
    rcases ht with rfl | rfl | rfl | rfl <;> cases hk
  exact (program_in_pieces (LfOnly.breaks (by show ∀ c ∈ _, _; decide) _)
    (LfOnly.breaks (by show ∀ c ∈ _, _; decide) _) h1 h2 h3 h4 h5 h6 rfl hb piece_collects hs
    (hr ▸ piece_same) (by decide) (by decide) _).1 ⟨pieceEnd, hp⟩

end Ressa
