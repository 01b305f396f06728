import Verif.Spec.Occurs
import Verif.Proof.TreeLemmas
import Verif.Proof.Shapes
import Verif.Proof.Drained

/-!
# Everything a parser returns is derivable

Also after errors: an error leaves the parser in some environment, and whatever it returns later is
derivable in the environment in which the call began.
-/

namespace Ressa
open Gr Tree

/-- The items before a parser are the last ones of its text. -/
theorem reachable_pend {L : Lexer} {b : Builder} {s : St} (hok : ScannerOk b.js (L.scan b.js))
    (h : Reachable L b s) (hm : 1 ≤ mu s) : ∃ t r, s.pend = t :: r ∧
      (∃ nl, (⟨nl, t.item⟩ : Tok) ∈ L.scan b.js) ∧ ∀ x ∈ r, x ∈ L.scan b.js := by
  obtain ⟨pre, t', h1, h2⟩ := (reachable_reading hok h).look
  have hf : s.foundEof = false := by
    rw [Bool.eq_false_iff]; intro hf
    have := reachable_drained h hf
    simp [mu, hf, this] at hm
  refine ⟨_, _, by rw [St.pend, hf]; rfl, ⟨t'.nl, ?_⟩, ?_⟩
  · simp [h1, h2]
  · intro x hx
    rw [h1]
    simp [(List.mem_filter.1 hx).1]

/-- A parser with an item left to consume stands in front of its items, in its environment. -/
theorem reachable_at {L : Lexer} {b : Builder} {s : St} (e : Bool)
    (hg : e = true → ∀ t ∈ L.scan b.js, (cfgOf L b).text t ≠ t!"get")
    (hok : ScannerOk b.js (L.scan b.js)) (h : Reachable L b s) (hm : 1 ≤ mu s) :
    At { cfgOf L b with exact := e } (s.ctx.env e) s.pend s where
  cfg := by
    obtain ⟨h1, h2, h3, h4, -, h6⟩ := reachable_settings h
    simp [St.cfg, cfgOf, h1, h2, h3, h4, h6]
  env := rfl
  pend := rfl
  eof hf := by
    have := reachable_drained h hf
    simp [mu, hf, this] at hm
  comments t ht _ := by
    obtain ⟨pre, t', h1, -⟩ := (reachable_reading hok h).look
    obtain ⟨raw, hraw, -⟩ := hok.items t (by rw [h1]; simp [ht])
    rw [(reachable_settings h).2.2.2.1]
    exact Option.isSome_iff_exists.2 ⟨raw, hraw⟩
  get he t ht := by
    obtain ⟨t', r, hp, ⟨nl, h1⟩, h2⟩ := reachable_pend hok h hm
    rw [hp] at ht
    rcases List.mem_cons.1 ht with rfl | ht
    · exact hg he ⟨nl, t.item⟩ h1
    · exact hg he t (h2 t ht)

theorem expression_consumes {s s' : St} {e : Expr} (h : full.expression s = .ok e s') :
    mu s' + 1 ≤ mu s := by
  have := Sys.expression_post anySys_ok (s := s) trivial
  rw [h] at this
  exact this.1

theorem NoGet.text {L : Lexer} {b : Builder} (h : NoGet L b) : ∀ t ∈ L.scan b.js, (cfgOf L b).text t ≠ t!"get" := by
  intro t ht hx
  refine h t ht ?_
  unfold Cfg.text Cfg.textOf at hx
  unfold Source
  cases hs : sliceB b.js t.item.span.start t.item.span.stop with
  | none => rw [show (cfgOf L b).stream = b.js from rfl, hs] at hx; cases hx
  | some w => rw [show (cfgOf L b).stream = b.js from rfl, hs] at hx; simpa using hx

/-- What a call returns is derivable from the items before the parser. -/
theorem returned_sound_exact {L : Lexer} {b : Builder} {n : Node} (e : Bool)
    (hg : e = true → ∀ t ∈ L.scan b.js, (cfgOf L b).text t ≠ t!"get") (hok : ScannerOk b.js (L.scan b.js))
    (h : Returned L b n) : ∃ Γ i o, (∃ s, Reachable L b s ∧ i = s.pend ∧ 1 ≤ mu s) ∧
      ((∃ p, n = .part p ∧
        (G { cfgOf L b with exact := e } Γ (.directive p) i o ∨ G { cfgOf L b with exact := e } Γ (.listItem p) i o)) ∨
      ∃ x, n = .expr x ∧ G { cfgOf L b with exact := e } Γ (.expression x) i o) := by
  cases h with
  | @part s p s' hr h =>
    have hm : 1 ≤ mu s := by have := part_consumes h; omega
    obtain ⟨-, o, -, ⟨-, -, hG⟩ | ⟨-, hG⟩⟩ := next_sound (reachable_at e hg hok hr hm) h
    · exact ⟨_, _, o, ⟨s, hr, rfl, hm⟩, .inl ⟨p, rfl, .inl hG⟩⟩
    · exact ⟨_, _, o, ⟨s, hr, rfl, hm⟩, .inl ⟨p, rfl, .inr hG⟩⟩
  | @expression s x s' hr h =>
    have hm : 1 ≤ mu s := by have := expression_consumes h; omega
    obtain ⟨o, -, hG⟩ := full_ok.expression _ _ _ _ _ (reachable_at e hg hok hr hm) h
    exact ⟨_, _, o, ⟨s, hr, rfl, hm⟩, 
        .inr ⟨x, rfl, hG⟩⟩

theorem returned_sound {L : Lexer} {b : Builder} {n : Node} (hok : ScannerOk b.js (L.scan b.js))
    (h : Returned L b n) : ∃ Γ i o, (∃ s, Reachable L b s ∧ i = s.pend ∧ 1 ≤ mu s) ∧
      ((∃ p, n = .part p ∧
        (G (cfgOf L b) Γ (.directive p) i o ∨ G (cfgOf L b) Γ (.listItem p) i o)) ∨
      ∃ e, n = .expr e ∧ G (cfgOf L b) Γ (.expression e) i o) :=
  returned_sound_exact false nofun hok h

theorem returned_ev {L : Lexer} {b : Builder} {n : Node} (hok : ScannerOk b.js (L.scan b.js))
    (h : Returned L b n) : ∃ σ, Ev b.tolerant σ n := by
  obtain ⟨Γ, i, o, -, ⟨p, rfl, hG | hG⟩ | ⟨e, rfl, hG⟩⟩ := returned_sound hok h
  · exact ⟨_, (good_of_G hG).1⟩
  · exact ⟨_, (good_of_G hG).1⟩
  · exact ⟨_, good_of_G hG⟩

theorem returned_fit {L : Lexer} {b : Builder} {n : Node} (hok : ScannerOk b.js (L.scan b.js))
    (h : Returned L b n) : ∃ aw, Fit b.tolerant aw n := by
  obtain ⟨Γ, i, o, -, ⟨p, rfl, hG | hG⟩ | ⟨e, rfl, hG⟩⟩ := returned_sound hok h
  · exact ⟨_, fit_of_G hG⟩
  · exact ⟨_, fit_of_G hG⟩
  · exact ⟨_, (fit_of_G hG).1⟩

theorem returned_spelled {L : Lexer} {b : Builder} {n : Node}
    (hok : ScannerOk b.js (L.scan b.js)) (h : Returned L b n) {l} (hl : l ∈ n.leaves) :
    ∃ t ∈ L.scan b.js, SpelledBy b.js l t := by
  obtain ⟨Γ, i, o, ⟨s, hr, rfl, hm⟩, hG⟩ := returned_sound hok h
  have hs : Spell (cfgOf L b) n.leaves s.pend o := by
    obtain ⟨p, rfl, hG | hG⟩ | ⟨e, rfl, hG⟩ := hG
    · exact leaves_of_G hG
    · exact leaves_of_G hG
    · exact leaves_of_G hG
  obtain ⟨ts, h1, h2⟩ := hs.forall₂
  obtain ⟨t, ht, hsp⟩ := forall₂_mem h2 hl
  obtain ⟨t0, r, hp, ⟨nl, ht0⟩, hr⟩ := reachable_pend hok hr hm
  have := h1.subset ht
  rw [hp] at this
  rcases List.mem_cons.1 this with rfl | hx
  · exact ⟨_, ht0, spelledBy hok ht0 (by cases l <;> exact hsp)⟩
  · exact ⟨t, hr t hx, spelledBy hok (hr t hx) hsp⟩

theorem occurs_ev {L : Lexer} {b : Builder} {m : Node} (hok : ScannerOk b.js (L.scan b.js))
    (h : Occurs L b m) : ∃ σ, Ev b.tolerant σ m := by
  obtain ⟨n, hn, hs⟩ := h
  obtain ⟨σ, he⟩ := returned_ev hok hn
  exact ev_sub hs he

theorem occurs_local {L : Lexer} {b : Builder} {m : Node} (hok : ScannerOk b.js (L.scan b.js))
    (h : Occurs L b m) : ∃ σ, Local b.tolerant σ m := by
  obtain ⟨σ, he⟩ := occurs_ev hok h
  exact ⟨σ, (ev_iff.1 he).1⟩

/-- A node inside a class. -/
theorem class_local {L : Lexer} {b : Builder} {c m} (hok : ScannerOk b.js (L.scan b.js))
    (hw : Occurs L b (.cls c)) (hs : Sub m (.cls c)) (hm : m ≠ .cls c) :
    ∃ σ, σ.strict = true ∧ Local b.tolerant σ m := by
  obtain ⟨σ, he⟩ := occurs_ev hok hw
  obtain ⟨τ, he, ht⟩ := ev_class hs he hm
  exact ⟨τ, ht, (ev_iff.1 he).1⟩

theorem Tree.fit_sub {tol n m} (h : Sub m n) : ∀ {aw}, Fit tol aw n → ∃ aw', Fit tol aw' m := by
  induction h with
  | refl => exact fun h => ⟨_, h⟩
  | step hk _ ih => exact fun h => ih ((fit_iff.1 h).2 _ hk)

theorem occurs_fit {L : Lexer} {b : Builder} {m : Node} (hok : ScannerOk b.js (L.scan b.js))
    (h : Occurs L b m) : ∃ aw, Fit b.tolerant aw m := by
  obtain ⟨n, hn, hs⟩ := h
  obtain ⟨aw, he⟩ := returned_fit hok hn
  exact fit_sub hs he

theorem occurs_shape {L : Lexer} {b : Builder} {m : Node} (hok : ScannerOk b.js (L.scan b.js))
    (h : Occurs L b m) : ∃ aw, Shape b.tolerant aw m := by
  obtain ⟨aw, he⟩ := occurs_fit hok h
  exact ⟨aw, (fit_iff.1 he).1⟩

theorem Tree.Sub.trans {a b c} (h : Sub a b) (h' : Sub b c) : Sub a c := by
  induction h' with
  | refl => exact h
  | step hk _ ih => exact .step hk ih

theorem Occurs.sub {L : Lexer} {b : Builder} {m n : Node} (h : Occurs L b n) (hs : Sub m n) :
    Occurs L b m := by
  obtain ⟨x, hx, hn⟩ := h
  exact ⟨x, hx, hs.trans hn⟩

/-- The immediate components of what occurs. -/
theorem Occurs.kid {L : Lexer} {b : Builder} {e : Edge} {m n : Node} (h : Occurs L b n)
    (hk : (e, m) ∈ n.kids) : Occurs L b m := h.sub (.step hk .refl)

theorem Collects.returned {L : Lexer} {b : Builder} {s ps s'} (hr : Reachable L b s)
    (h : Collects s ps s') : ∀ p ∈ ps, Returned L b (.part p) := by
  induction h with
  | nil => simp
  | @cons s p s1 ps s' h1 _ ih =>
    have hr1 : Reachable L b s1 := by
      obtain ⟨s0, h0, hc⟩ := hr
      exact ⟨s0, h0, hc.tail (.nextOk h1)⟩
    simpa using ⟨.part hr h1, ih hr1⟩

/-- What is in the parts of a new parser occurs. -/
theorem Yields.occurs {L : Lexer} {b : Builder} {ps : List ProgramPart} {m : Node}
    (h : Yields L b ps) (hw : Within m ps) : Occurs L b m := by
  obtain ⟨s, s', hb, hc⟩ := h
  obtain ⟨p, hp, hs⟩ := hw
  exact ⟨_, hc.returned ⟨s, hb, .refl⟩ p hp, hs⟩

/-- What is in a program that `parse` returns, after any other calls, occurs. -/
theorem parse_occurs {L : Lexer} {b : Builder} {s s' : St} {prog : Program} {ps m}
    (hr : Reachable L b s) (h : parse s = .ok prog s') (hp : prog = .script ps ∨ prog = .mod ps)
    (hw : Within m ps) : Occurs L b m := by
  obtain ⟨qs, hc, -, rfl⟩ := (parse_ok_iff ..).1 h
  have : ps = qs := by
    unfold programOf at hp
    split at hp <;> simpa [eq_comm] using hp
  subst this
  obtain ⟨p, hp, hs⟩ := hw
  exact ⟨_, hc.returned hr p hp, hs⟩

end Ressa
