import Verif.Props.Safety

/-!
# Errors do not point back (C46)

`Verif.Props.Safety` shows that an `UnexpectedToken` error is about some item of the text.  Here:
the item is the look-ahead at the start of the failing call or follows it, and is not a comment.
-/

namespace Ressa

/-- The item is the look-ahead of `s`, or one of the unread items that is not a comment. -/
def Ahead (s : St) (i : Item) : Prop :=
  i = s.look ∨ ∃ t ∈ s.rest, t.item = i ∧ i.token.isComment = false

/-- The state is reached from `s0` by reading items. -/
structure From (s0 s : St) : Prop where
  stream : s.stream = s0.stream
  lines : s.lines = s0.lines
  rest : s.rest <:+ s0.rest
  look : Ahead s0 s.look

theorem Next.ahead {s0 span ts s r} (h : Next span ts s r) : ts <:+ s0.rest →
    s.stream = s0.stream → s.lines = s0.lines → Ahead s0 s.look →
    r.Sat (fun i s' => i = s.look ∧ From s0 s') (fun e s' => From s0 s' ∧
      ∀ p m, e ≠ .unexpectedToken p m) True := by
  induction h with
  | eof => exact fun h1 h2 h3 h4 => ⟨rfl, h2, h3, h1, h4⟩
  | after => exact fun h1 h2 h3 h4 => ⟨⟨h2, h3, h1, h4⟩, by simp⟩
  | missing => exact fun h1 h2 h3 h4 => ⟨⟨h2, h3, h1, h4⟩, by simp⟩
  | bad => intros; trivial
  | badComment =>
    exact fun h1 h2 h3 h4 => ⟨⟨h2, h3, (List.suffix_cons _ _).trans h1, h4⟩, by simp⟩
  | comment _ _ _ _ ih => exact fun h1 h2 h3 h4 => ih ((List.suffix_cons _ _).trans h1) h2 h3 h4
  | @token span t ts s cur look hu ht =>
    exact fun h1 h2 h3 h4 => ⟨rfl, h2, h3, (List.suffix_cons _ _).trans h1,
      .inr ⟨t, h1.subset (by simp), rfl, ht⟩⟩

/-- Errors are about items ahead of `s0`. -/
def aheadSys (s0 : St) : Sys where
  good := Ahead s0
  inv := From s0
  ord _ _ := True
  errOk e _ := ∀ p m, e = .unexpectedToken p m → (∀ t, m ≠ .raw t) →
    ∃ i, Ahead s0 i ∧ getItemPosition s0.lines i.span.start = some p ∧ m.About s0.stream i
  panicOk := True

theorem aheadSys_ok (s0 : St) : SysOk (aheadSys s0) where
  refl _ := trivial
  trans _ _ := trivial
  ctxInv _ h := ⟨h.stream, h.lines, h.rest, h.look⟩
  ctxOrd _ := trivial
  next {s} h := by
    have := (nextItem_spec s).ahead h.rest h.stream h.lines h.look
    revert this
    cases nextItem s with
    | ok i s' => rintro ⟨rfl, h'⟩; exact ⟨h', trivial, h.look⟩
    | err e s' => exact fun h => ⟨h.1, trivial, fun p m e => absurd e (h.2 p m)⟩
    | panic => exact fun _ => trivial
    | diverge => exact fun h => h
  look h := h.look
  slice _ _ _ := ⟨trivial, fun _ _ _ _ e => by cases e⟩
  pos _ _ _ := trivial
  errPos {s i p m} hi hg hp hm := by
    rintro p' m' ⟨⟩ _
    exact ⟨i, hg, hi.lines ▸ hp, hi.stream ▸ hm⟩
  peek _ _ _ := trivial
  reinterpret _ := fun _ _ e => by cases e
  label _ _ := fun _ _ e => by cases e
  fail h := by cases h <;> exact fun _ _ e => by cases e
  template _ _ _ _ := ⟨fun _ => trivial, fun _ _ => trivial⟩
  regex _ _ _ := by
    split
    · rintro p t p' m' ⟨⟩ h; exact absurd rfl (h t)
    · exact fun _ => trivial

/-! ## C46 -/

/-- The token blamed by an unexpected-token error of a call is the look-ahead when the call began,
or comes after it and is not a comment.  This holds in every state, also after errors, and for
every scanner. -/
theorem blames_ahead {s s' : St} {p : Position} {m : Msg} (hm : ∀ t, m ≠ .raw t)
    (hf : Fails s (.unexpectedToken p m) s') :
    ∃ i, Ahead s i ∧ getItemPosition s.lines i.span.start = some p ∧ m.About s.stream i := by
  have hi : (aheadSys s).inv s := ⟨rfl, rfl, List.suffix_refl _, .inl rfl⟩
  have H := aheadSys_ok s
  cases hf with
  | next e => have := Sys.next_post H hi; rw [e] at this; exact this.2.2.2 p m rfl hm
  | parse e => have := Sys.parse_post H hi; rw [e] at this; exact this.2.2.2 p m rfl hm
  | expression e => have := Sys.expression_post H hi; rw [e] at this; exact this.2.2.2 p m rfl hm

/-- Hence the position of the error is that of an offset at or after the start of the part that
fails: on the output of a scanner the blamed item starts no earlier than the look-ahead. -/
theorem blames_offset {L : Lexer} {b : Builder} {s s' : St} {p : Position} {m : Msg}
    (hok : ScannerOk b.js (L.scan b.js)) (h : Reachable L b s)
    (hf : Fails s (.unexpectedToken p m) s') :
    ∃ i : Item, s.look.span.start ≤ i.span.start ∧
      getItemPosition (getLines b.js) i.span.start = some p ∧ m.About b.js i := by
  have hr := reachable_reading hok h
  obtain ⟨i, ha, hp, hm⟩ := blames_ahead (fun t e => (error_kinds hok h hf).2.2.1 p t (by rw [e])) hf
  refine ⟨i, ?_, hr.lines ▸ hp, hr.stream ▸ hm⟩
  rcases ha with rfl | ⟨t, ht, rfl, _⟩
  · exact Nat.le_refl _
  · obtain ⟨pre, t0, hall, hl⟩ := hr.look
    have h1 := hok.after hall t ht
    have h2 := (hok.mem_span (t := t0) (by rw [hall]; simp)).2.2
    rw [hl]
    omega

/-- `a; var 1`: the first part is read, the second call fails and blames the `1`. -/
def Demo.twoParts : List Demo.Piece := [Demo.id t!"a", Demo.p .semiColon t!";", Demo.k .var,
  Demo.n t!"1"]

/-- The state between the two calls. -/
def Demo.between : St := Demo.after next (Demo.state Demo.twoParts)

/-- C46 on `a; var 1`: the hypotheses hold, and the error is at the fourth item. -/
example :
    ScannerOk (Demo.text Demo.twoParts) ((Demo.lexer Demo.twoParts).scan
      (Demo.text Demo.twoParts)) ∧
    Demo.between.look.span.start = 5 ∧
    (next Demo.between).outcome.error? = some (.unexpectedToken ⟨1, 9⟩
      (.expected [.text t!"variable identifier"] .numeric)) := by
  refine ⟨Demo.scannerOk ?_, ?_, ?_⟩
  · simp only [Demo.twoParts, List.forall_mem_cons]
    exact ⟨⟨nofun, trivial⟩, ⟨nofun, trivial⟩, ⟨nofun, trivial⟩, ⟨nofun, trivial⟩, nofun⟩
  · kernel_rfl
  · kernel_rfl

end Ressa
