import Verif.Proof.ApiSafe
import Verif.Spec.Demo

/-!
# Termination, progress and the iterator (C01, C03, C04, C05)
-/

namespace Ressa

/-! ## C01 -/

/-- C01: every public call returns, in every state whatsoever. -/
theorem calls_return (s : St) :
    next s ≠ .diverge ∧ parse s ≠ .diverge ∧ full.expression s ≠ .diverge :=
  ⟨Sys.post_ne_diverge (Sys.next_post anySys_ok (s := s) trivial),
    Sys.post_ne_diverge (Sys.parse_post anySys_ok (s := s) trivial),
    Sys.post_ne_diverge (Sys.expression_post anySys_ok (s := s) trivial)⟩

/-- C01: construction returns, for every scanner and every setting. -/
theorem build_returns (L : Lexer) (b : Builder) : b.build L ≠ .diverge :=
  Sys.post_ne_diverge (Sys.skipItem_post anySys_ok (s := b.init L) trivial)

/-- C01: nesting the eight recursive functions to a depth of at most one more than the number of
items left gives the result of the call: the parser with every deeper call cut off does not run
into the cut. -/
theorem depth_bounded (s : St) :
    (recN (mu s + 1)).assign s ≠ .diverge ∧ (recN (mu s + 1)).expression s ≠ .diverge ∧
    (recN (mu s + 1)).stmt s ≠ .diverge ∧ (recN (mu s + 1)).listItem s ≠ .diverge :=
  ⟨Sys.post_ne_diverge (full_post s).assign, Sys.post_ne_diverge (full_post s).expression,
    Sys.post_ne_diverge (full_post s).stmt, Sys.post_ne_diverge (full_post s).listItem⟩

/-- C01: the bounds of the model are invisible.  The parser satisfies the recursion equations of
the source, and is the only solution. -/
theorem recursion_equations : full = step full ∧ ∀ R : Rec, R = step R → R = full :=
  ⟨full_eq, fun _ => full_unique⟩

/-- C01 on a text with a nested call, a comment and a function. -/
example : Demo.parse [Demo.id t!"f", Demo.p .openParen t!"(", Demo.id t!"a", Demo.p .comma t!",",
      ⟨false, .comment .multiLine, t!"/* é */"⟩, Demo.n t!"1", Demo.p .closeParen t!")"] =
    .ok (.script [.stmt (.expr (.call (.ident t!"f")
      [.ident t!"a", .literal (.number t!"1")]))]) := by
  kernel_rfl

/-! ## C03 -/

/-- C03: every part consumes at least one scanner item. -/
theorem part_consumes {s s' : St} {p : ProgramPart} (h : next s = .ok (some p) s') :
    mu s' + 1 ≤ mu s := by
  unfold next at h
  simp only [lookIs_bind] at h
  split at h
  · simp at h
  · obtain ⟨a, s1, h1, h2⟩ := bind_eq_ok.1 h
    simp only [pure_run, Res.ok.injEq] at h2
    have := h1 ▸ Sys.nextPart_post anySys_ok (s := s) trivial
    rw [← h2.2]
    exact this.1

theorem Collects.mu_le {s ps s'} (h : Collects s ps s') : mu s' + ps.length ≤ mu s := by
  induction h with
  | nil => simp
  | cons h _ ih => have := part_consumes h; simp only [List.length_cons]; omega

/-- C03: the number of parts is at most the number of scanner items of the source. -/
theorem parts_le_items {L : Lexer} {b : Builder} {s0 s : St} {ps : List ProgramPart}
    (h0 : b.build L = .ok () s0) (h : Collects s0 ps s) : ps.length ≤ (L.scan b.js).length := by
  have h1 := h.mu_le
  have hp : anySys.post true Any (b.init L) (b.build L) := Sys.skipItem_post anySys_ok trivial
  rw [h0] at hp
  have := hp.1
  simp only [mu, Builder.init, initState, one_true] at this h1
  have e : ∀ s : St, (if s.foundEof = true then 0 else 1) ≤ 1 := by intro s; split <;> omega
  simp at this
  omega

/-! ## C04 -/

/-- C04: `None` is returned exactly at the end of file and changes nothing. -/
theorem none_iff_eof (s s' : St) :
    next s = .ok none s' ↔ s.look.token = .eof ∧ s' = s := by
  unfold next
  simp only [lookIs_bind]
  split
  · next h =>
    have : s.look.token = .eof := by
      revert h; cases s.look.token <;> simp [Token.isEof]
    simp only [pure_run, Res.ok.injEq, true_and, this]
    exact eq_comm
  · next h =>
    constructor
    · intro hc
      obtain ⟨a, s1, _, h2⟩ := bind_eq_ok.1 hc
      simp at h2
    · rintro ⟨h', _⟩
      rw [h'] at h
      exact absurd rfl h

/-- The results of the first `n` calls of `next` (fewer if a call panics). -/
def nextResults : Nat → St → List (Outcome (Option ProgramPart))
  | 0, _ => []
  | n + 1, s =>
    (next s).outcome :: match next s with
      | .ok _ s' => nextResults n s'
      | .err _ s' => nextResults n s'
      | _ => []

/-- C04: after the first `None` every further call returns `None`. -/
theorem none_forever {s s' : St} (h : next s = .ok none s') (n : Nat) :
    nextResults n s' = List.replicate n (.ok none) := by
  obtain ⟨_, rfl⟩ := (none_iff_eof s s').1 h
  induction n with
  | zero => rfl
  | succ n ih => simp only [nextResults, h, Res.outcome, List.replicate_succ, ih]

/-- C04, C03: one part and then `None`. -/
example : nextResults 4 (Demo.state [Demo.id t!"a", Demo.p .semiColon t!";"]) =
    [.ok (some (.stmt (.expr (.ident t!"a")))), .ok none, .ok none, .ok none] := by
  kernel_rfl

/-! ## C05 -/

/-- The program variant for a state. -/
def programOf (s : St) (ps : List ProgramPart) : Program :=
  if s.isModule then .mod ps else .script ps

theorem Collects.snoc {s ps s1 p s2} (h : Collects s ps s1) (hp : next s1 = .ok (some p) s2) :
    Collects s (ps ++ [p]) s2 := by
  induction h with
  | nil => exact .cons hp .nil
  | cons h _ ih => exact .cons h (ih hp)

theorem Collects.det {s ps s1 qs s2} (h : Collects s ps s1) (k : Collects s qs s2)
    (h1 : ∀ p t, next s1 ≠ .ok (some p) t) (h2 : ∀ p t, next s2 ≠ .ok (some p) t) :
    ps = qs ∧ s1 = s2 := by
  induction h generalizing qs with
  | nil =>
    cases k with
    | nil => exact ⟨rfl, rfl⟩
    | cons h _ => exact absurd h (h1 _ _)
  | cons h _ ih =>
    cases k with
    | nil => exact absurd h (h2 _ _)
    | cons h' k' =>
      rw [h] at h'
      simp only [Res.ok.injEq, Option.some.injEq] at h'
      obtain ⟨rfl, rfl⟩ := h'
      obtain ⟨rfl, rfl⟩ := ih k' h1
      exact ⟨rfl, rfl⟩

theorem next_of_not_eof {s : St} (h : s.look.token.isEof = false) :
    next s = (nextPart >>= fun p => pure (some p)) s := by
  unfold next
  simp [h]

theorem loopN_collects : ∀ (n : Nat) (acc : List ProgramPart) (s : St),
    match loopN n (fun x => do if ← lookIs (·.isEof) then pure (some x) else pure none)
      (fun x => do return Sum.inl (← (do return x ++ [← nextPart]))) acc s with
    | .ok a s' => ∃ ps, Collects s ps s' ∧ next s' = .ok none s' ∧ a = acc ++ ps
    | .err e s' => ∃ ps s1, Collects s ps s1 ∧ next s1 = .err e s'
    | .panic => ∃ ps s1, Collects s ps s1 ∧ next s1 = .panic
    | .diverge => True
  | 0, acc, s => trivial
  | n + 1, acc, s => by
    unfold loopN
    have e : ∀ k : Option (List ProgramPart) → P (List ProgramPart),
        ((lookIs (·.isEof) >>= fun b => if b = true then pure (some acc) else pure none) >>= k) s =
          k (if s.look.token.isEof then some acc else none) s := by
      intro k
      rw [bind_def, lookIs_bind, ite_run]
      cases s.look.token.isEof <;> rfl
    rw [e]
    cases h : s.look.token.isEof
    case true =>
      refine ⟨[], .nil, (none_iff_eof s s).2 ⟨?_, rfl⟩, by simp⟩
      revert h; cases s.look.token <;> simp [Token.isEof]
    case false =>
      simp only [Bool.false_eq_true, if_false, bind_assoc', pure_bind']
      rw [bind_def]
      have hn := next_of_not_eof h
      rw [bind_def] at hn
      cases hp : nextPart s with
      | ok p s1 =>
        rw [hp] at hn
        have ih := loopN_collects n (acc ++ [p]) s1
        simp only [bind_assoc', pure_bind'] at ih
        dsimp only
        revert ih
        generalize loopN n _ _ _ _ = r
        intro ih
        cases r with
        | ok a s' =>
          obtain ⟨ps, h1, h2, h3⟩ := ih
          exact ⟨p :: ps, .cons hn h1, h2, by simp [h3]⟩
        | err e s' =>
          obtain ⟨ps, s2, h1, h2⟩ := ih
          exact ⟨p :: ps, s2, .cons hn h1, h2⟩
        | panic =>
          obtain ⟨ps, s2, h1, h2⟩ := ih
          exact ⟨p :: ps, s2, .cons hn h1, h2⟩
        | diverge => trivial
      | err e s1 => rw [hp] at hn; exact ⟨[], s, .nil, hn⟩
      | panic => rw [hp] at hn; exact ⟨[], s, .nil, hn⟩
      | diverge => trivial

theorem parse_collects (s : St) : match parse s with
    | .ok a s' => ∃ ps, Collects s ps s' ∧ next s' = .ok none s' ∧ a = programOf s' ps
    | .err e s' => ∃ ps s1, Collects s ps s1 ∧ next s1 = .err e s'
    | .panic => ∃ ps s1, Collects s ps s1 ∧ next s1 = .panic
    | .diverge => False := by
  have hd := (calls_return s).2.1
  have h := loopN_collects (mu s + 1) [] s
  unfold parse at hd ⊢
  rw [bind_def] at hd ⊢
  unfold untilP loopP at hd ⊢
  revert h hd
  generalize loopN _ _ _ _ s = r
  intro hd h
  cases r with
  | ok a s' =>
    obtain ⟨ps, h1, h2, h3⟩ := h
    simp only [List.nil_append] at h3
    subst h3
    dsimp only
    rw [readModule, get_bind, ite_run]
    cases hm : s'.isModule
    · exact ⟨a, h1, h2, by simp [programOf, hm]⟩
    · exact ⟨a, h1, h2, by simp [programOf, hm]⟩
  | err e s' => exact h
  | panic => exact h
  | diverge => exact absurd rfl hd

/-- C05: `parse` succeeds exactly when the iterator yields parts up to `None`, and returns
exactly these parts in order. -/
theorem parse_ok_iff (s s' : St) (prog : Program) :
    parse s = .ok prog s' ↔
      ∃ ps, Collects s ps s' ∧ next s' = .ok none s' ∧ prog = programOf s' ps := by
  have h := parse_collects s
  constructor
  · intro e; rw [e] at h; exact h
  · rintro ⟨ps, hc, hn, rfl⟩
    have no : ∀ p t, next s' ≠ .ok (some p) t := by intro p t; rw [hn]; simp
    cases hp : parse s with
    | ok a s1 =>
      rw [hp] at h
      obtain ⟨qs, h1, h2, rfl⟩ := h
      obtain ⟨rfl, rfl⟩ := hc.det h1 no (by intro p t; rw [h2]; simp)
      rfl
    | err e s1 =>
      rw [hp] at h
      obtain ⟨qs, s2, h1, h2⟩ := h
      obtain ⟨rfl, rfl⟩ := hc.det h1 no (by intro p t; rw [h2]; simp)
      rw [hn] at h2; simp at h2
    | panic =>
      rw [hp] at h
      obtain ⟨qs, s2, h1, h2⟩ := h
      obtain ⟨rfl, rfl⟩ := hc.det h1 no (by intro p t; rw [h2]; simp)
      rw [hn] at h2; simp at h2
    | diverge => rw [hp] at h; exact h.elim

/-- C05: `parse` fails exactly with the first error of the iterator. -/
theorem parse_err_iff (s s' : St) (e : Error) :
    parse s = .err e s' ↔ ∃ ps s1, Collects s ps s1 ∧ next s1 = .err e s' := by
  have h := parse_collects s
  constructor
  · intro e; rw [e] at h; exact h
  · rintro ⟨ps, s1, hc, hn⟩
    have no : ∀ p t, next s1 ≠ .ok (some p) t := by intro p t; rw [hn]; simp
    cases hp : parse s with
    | ok a s2 =>
      rw [hp] at h
      obtain ⟨qs, h1, h2, rfl⟩ := h
      obtain ⟨rfl, rfl⟩ := hc.det h1 no (by intro p t; rw [h2]; simp)
      rw [hn] at h2; simp at h2
    | err e s2 =>
      rw [hp] at h
      obtain ⟨qs, s3, h1, h2⟩ := h
      obtain ⟨rfl, rfl⟩ := hc.det h1 no (by intro p t; rw [h2]; simp)
      rw [hn] at h2; simp only [Res.err.injEq] at h2 ⊢; exact ⟨h2.1.symm, h2.2.symm⟩
    | panic =>
      rw [hp] at h
      obtain ⟨qs, s2, h1, h2⟩ := h
      obtain ⟨rfl, rfl⟩ := hc.det h1 no (by intro p t; rw [h2]; simp)
      rw [hn] at h2; simp at h2
    | diverge => rw [hp] at h; exact h.elim

/-- C05: two statements, collected. -/
example : Demo.parse [Demo.id t!"a", Demo.p .semiColon t!";", Demo.nl (Demo.id t!"b")] =
    .ok (.script [.stmt (.expr (.ident t!"a")), .stmt (.expr (.ident t!"b"))]) := by
  kernel_rfl

/-- C05: a failing text. -/
example : (Demo.parse [Demo.id t!"a", Demo.p .semiColon t!";", Demo.p .closeParen t!")"]) =
    .err (.unexpectedToken ⟨1, 5⟩ (.expected [.text t!"{", .text t!"[", .text t!"("]
      (.punct .closeParen))) := by
  kernel_rfl

end Ressa
