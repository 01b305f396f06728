import Verif.Spec.Wrap
import Verif.Proof.Small

/-!
# Other line breaks in phrases of the small language
-/

namespace Ressa.Gr

variable {C C' : Cfg}

theorem Wrap.head {f i i'} (h : Wrap C C' f i i') : head i' = head i := by
  cases h with
  | nil => rfl
  | cons h => exact h

theorem Wrap.tail {f i i'} (h : Wrap C C' f i i') : ∃ f', Wrap C C' f' i.tail i'.tail := by
  cases h with
  | nil => exact ⟨f, .nil⟩
  | cons _ _ _ _ _ h => exact ⟨_, h⟩

theorem Wrap.second {f i i'} (h : Wrap C C' f i i') : Gr.head i'.tail = Gr.head i.tail :=
  h.tail.elim fun _ h => h.head

theorem Wrap.plainHead {f i i'} (h : Wrap C C' f i i') : plainHead i' = plainHead i := by
  induction h with
  | nil => rfl
  | cons h1 _ _ _ _ _ ih => simp only [Gr.plainHead, h1, ih]

theorem Wrap.forOk {f i i'} (h : Wrap C C' f i i') (hi : forOk C i) : forOk C' i' := by
  induction h with
  | nil => trivial
  | cons h1 h2 _ _ _ h ih =>
    exact ⟨h2 ▸ hi.1, fun ht => h.head ▸ hi.2.1 (h1.symm.trans ht), ih hi.2.2⟩

theorem Wrap.noOf {f i i'} (h : Wrap C C' f i i') (hi : noOf C i) : noOf C' i' := by
  induction h with
  | nil => trivial
  | cons h1 h2 _ _ _ h ih =>
    refine ⟨h2 ▸ hi.1, fun hr => ?_, ih hi.2.2⟩
    subst hr
    cases h
    exact h1.trans (hi.2.1 rfl)

/-- The text stays in the scope of the comparison. -/
theorem Wrap.text {fns f i i'} (h : Wrap C C' f i i') (hi : SmallText C fns i) :
    SmallText C' fns i' := by
  induction h with
  | nil => trivial
  | @cons f t t' r r' h1 h2 _ h4 h5 h ih =>
    obtain ⟨k1, k2, k3, k4, k5, k6, k7, k8, ⟨k9, k10, k11, k12⟩, k13⟩ := hi
    refine ⟨h1 ▸ k1, h2 ▸ k2, h2 ▸ k3, fun hn => ?_, ?_, ?_, ?_, ?_, ⟨?_, ?_, ?_, ?_⟩, ih k13⟩
    · rw [h1]; exact (h4 hn).elim k4 fun h => h
    · rintro u' s' rfl
      cases h with
      | cons j1 => rw [h1, j1]; exact k5 _ _ rfl
    · rw [h1, h.plainHead]; exact k6
    · rw [h1, h.plainHead, h.head]; exact k7
    · rw [h1]; exact fun ht => h.forOk (k8 ht)
    · intro ht hh
      rw [Kw, h1] at ht
      refine Bool.eq_false_iff.2 fun hb => ?_
      have := h5 (by rw [ht]; rfl) hb
      rw [k9 ht (h.head.symm.trans hh)] at this; cases this
    · rw [Is, h1, h.head, h.second]; exact k10
    · rw [Kw, h1]; exact fun ht => h.noOf (k11 ht)
    · rw [Is, h1, h2]; exact k12

theorem Wrap.uncons {f t i i'} (h : Wrap C C' f (t :: i) i') : ∃ t' r', i' = t' :: r' ∧
    t'.item.token = t.item.token ∧ C'.text t' = C.text t ∧
      (t'.nl = true → t.nl = true ∨ smallLine t.item.token = true) ∧
      (jump t.item.token = true → C'.nl r' = true → C.nl i = true) ∧
      Wrap C C' (opens t.item.token) i r' := by
  cases h with
  | cons h1 h2 h3 h4 h5 h6 => exact ⟨_, _, rfl, h1, h2, h4, h5, h6⟩

theorem Wrap.ends {f j o j'} (h : Wrap C C' f j j') (hf : f = false) (he : C.ends j o) :
    ∃ f' o', Wrap C C' f' o o' ∧ C'.ends j' o' := by
  subst hf
  rcases he with ⟨t, ht, rfl⟩ | ⟨rfl, he⟩
  · cases h with
    | cons h1 _ _ _ _ h => exact ⟨_, _, h, .inl ⟨_, h1.trans ht, rfl⟩⟩
  · refine ⟨_, j', h, .inr ⟨rfl, ?_⟩⟩
    rw [h.head]
    rcases he with he | he | he
    · cases h with
      | nil => exact .inr (.inr rfl)
      | cons _ _ h => exact .inl ((h he).resolve_left nofun)
    · exact .inr (.inl he)
    · exact .inr (.inr he)

/-- Phrases that do not end with one of the punctuators. -/
def solid : SK → Bool
  | .expr _ _ | .list _ | .args _ | .names _ | .params _ | .fn _ | .decl _ | .decls _ | .lex _ _
  | .lexs _ _ | .block _ => true
  | _ => false

theorem update_line {op : UpdateOperator} : smallLine (updateToken op) = false := by
  cases op <;> rfl

theorem update_closes {op : UpdateOperator} : opens (updateToken op) = false := by
  cases op <;> rfl

set_option maxHeartbeats 1000000 in
theorem Small.wrap {p ls k i o} (h : Small C p ls k i o) : ∀ f i', Wrap C C' f i i' →
    (∀ n, k = .label n → f = false ∧ (C'.nl i' = true → C.nl i = true)) →
    ∃ f' o', Wrap C C' f' o o' ∧ (solid k = true → f' = false) ∧ Small C' p ls k i' o' := by
  have hm : ∀ {f o o'}, Wrap C C' f o o' → memEnd o → memEnd o' := by
    intro f o o' h h1; unfold memEnd; rw [h.head]; exact h1
  induction h
  case name h0 =>
    intro f i' hw hl
    obtain ⟨_, _, rfl, a_t, b_t, n_t, j_t, w_o⟩ := hw.uncons
    refine ⟨_, _, w_o, fun _ => by rw [show _ = _ from h0]; rfl, ?_⟩
    rw [← b_t]
    exact .name (a_t.trans h0)
  case letName h0 =>
    intro f i' hw hl
    obtain ⟨_, _, rfl, a_t, b_t, n_t, j_t, w_o⟩ := hw.uncons
    refine ⟨_, _, w_o, fun _ => by rw [show _ = _ from h0]; rfl, ?_⟩
    rw [← b_t]
    exact .letName (a_t.trans h0)
  case number h0 =>
    intro f i' hw hl
    obtain ⟨_, _, rfl, a_t, b_t, n_t, j_t, w_o⟩ := hw.uncons
    refine ⟨_, _, w_o, fun _ => by rw [show _ = _ from h0]; rfl, ?_⟩
    rw [← b_t]
    exact .number (a_t.trans h0)
  case string h0 =>
    intro f i' hw hl
    obtain ⟨_, _, rfl, a_t, b_t, n_t, j_t, w_o⟩ := hw.uncons
    refine ⟨_, _, w_o, fun _ => by rw [show _ = _ from h0]; rfl, ?_⟩
    rw [← b_t]
    exact .string (a_t.trans h0)
  case boolean h0 =>
    intro f i' hw hl
    obtain ⟨_, _, rfl, a_t, b_t, n_t, j_t, w_o⟩ := hw.uncons
    refine ⟨_, _, w_o, fun _ => by rw [show _ = _ from h0]; rfl, ?_⟩
    exact .boolean (a_t.trans h0)
  case regex h0 h1 h2 =>
    intro f i' hw hl
    obtain ⟨_, _, rfl, a_t, b_t, n_t, j_t, w_o⟩ := hw.uncons
    refine ⟨_, _, w_o, fun _ => by rw [show _ = _ from h0]; rfl, ?_⟩
    exact .regex (a_t.trans h0) (b_t.trans h1) h2
  case template h0 h1 =>
    intro f i' hw hl
    obtain ⟨_, _, rfl, a_t, b_t, n_t, j_t, w_o⟩ := hw.uncons
    refine ⟨_, _, w_o, fun _ => by rw [show _ = _ from h0]; rfl, ?_⟩
    rw [← b_t]
    exact .template (a_t.trans h0) (b_t.trans h1)
  case this h0 =>
    intro f i' hw hl
    obtain ⟨_, _, rfl, a_t, b_t, n_t, j_t, w_o⟩ := hw.uncons
    refine ⟨_, _, w_o, fun _ => by rw [show _ = _ from h0]; rfl, ?_⟩
    exact .this (a_t.trans h0)
  case paren h0 h1 h2 ih0 =>
    intro f i' hw hl
    obtain ⟨_, _, rfl, a_t, b_t, n_t, j_t, w_i⟩ := hw.uncons
    obtain ⟨_, _, w_tq0, c1, s1⟩ := ih0 _ _ w_i nofun
    obtain ⟨_, _, rfl, a_tq, b_tq, n_tq, j_tq, w_o⟩ := w_tq0.uncons
    refine ⟨_, _, w_o, fun _ => by rw [show _ = _ from h2]; rfl, ?_⟩
    exact .paren (a_t.trans h0) s1 (a_tq.trans h2)
  case array h0 h1 h2 ih0 =>
    intro f i' hw hl
    obtain ⟨_, _, rfl, a_t, b_t, n_t, j_t, w_i⟩ := hw.uncons
    obtain ⟨_, _, w_tq0, c1, s1⟩ := ih0 _ _ w_i nofun
    obtain ⟨_, _, rfl, a_tq, b_tq, n_tq, j_tq, w_o⟩ := w_tq0.uncons
    refine ⟨_, _, w_o, fun _ => by rw [show _ = _ from h2]; rfl, ?_⟩
    exact .array (a_t.trans h0) s1 (a_tq.trans h2)
  case fnExpr h0 ih0 =>
    intro f i' hw hl
    have w_i := hw
    obtain ⟨_, _, w_o, c0, s0⟩ := ih0 _ _ w_i nofun
    refine ⟨_, _, w_o, fun _ => c0 rfl, ?_⟩
    exact .fnExpr s0
  case dot h0 h1 h2 h3 ih0 =>
    intro f i' hw hl
    have w_i := hw
    obtain ⟨_, _, w_t0, c1, s1⟩ := ih0 _ _ w_i nofun
    obtain ⟨_, _, rfl, a_t, b_t, n_t, j_t, w_tq0⟩ := w_t0.uncons
    obtain ⟨_, _, rfl, a_tq, b_tq, n_tq, j_tq, w_o⟩ := w_tq0.uncons
    refine ⟨_, _, w_o, fun _ => by rw [show _ = _ from h3]; rfl, ?_⟩
    rw [← b_tq]
    exact .dot h0 s1 (a_t.trans h2) (a_tq.trans h3)
  case index h0 h1 h2 h3 h4 ih0 ih1 =>
    intro f i' hw hl
    have w_i := hw
    obtain ⟨_, _, w_t0, c1, s1⟩ := ih0 _ _ w_i nofun
    obtain ⟨_, _, rfl, a_t, b_t, n_t, j_t, w_j⟩ := w_t0.uncons
    obtain ⟨_, _, w_tq0, c3, s3⟩ := ih1 _ _ w_j nofun
    obtain ⟨_, _, rfl, a_tq, b_tq, n_tq, j_tq, w_o⟩ := w_tq0.uncons
    refine ⟨_, _, w_o, fun _ => by rw [show _ = _ from h4]; rfl, ?_⟩
    exact .index h0 s1 (a_t.trans h2) s3 (a_tq.trans h4)
  case tagged h0 h1 h2 h3 ih0 =>
    intro f i' hw hl
    have w_i := hw
    obtain ⟨_, _, w_t0, c1, s1⟩ := ih0 _ _ w_i nofun
    obtain ⟨_, _, rfl, a_t, b_t, n_t, j_t, w_o⟩ := w_t0.uncons
    refine ⟨_, _, w_o, fun _ => by rw [show _ = _ from h2]; rfl, ?_⟩
    rw [← b_t]
    exact .tagged h0 s1 (a_t.trans h2) (b_t.trans h3)
  case newArgs h0 h1 h2 ih0 ih1 =>
    intro f i' hw hl
    obtain ⟨_, _, rfl, a_t, b_t, n_t, j_t, w_i⟩ := hw.uncons
    obtain ⟨_, _, w_j, c1, s1⟩ := ih0 _ _ w_i nofun
    obtain ⟨_, _, w_o, c2, s2⟩ := ih1 _ _ w_j nofun
    refine ⟨_, _, w_o, fun _ => c2 rfl, ?_⟩
    exact .newArgs (a_t.trans h0) s1 s2
  case new h0 h1 h2 h3 ih0 =>
    intro f i' hw hl
    obtain ⟨_, _, rfl, a_t, b_t, n_t, j_t, w_i⟩ := hw.uncons
    obtain ⟨_, _, w_o, c1, s1⟩ := ih0 _ _ w_i nofun
    refine ⟨_, _, w_o, fun _ => c1 rfl, ?_⟩
    exact .new (a_t.trans h0) s1 (hm w_o h2) (by rw [w_o.head]; exact h3)
  case call h0 h1 ih0 ih1 =>
    intro f i' hw hl
    have w_i := hw
    obtain ⟨_, _, w_j, c0, s0⟩ := ih0 _ _ w_i nofun
    obtain ⟨_, _, w_o, c1, s1⟩ := ih1 _ _ w_j nofun
    refine ⟨_, _, w_o, fun _ => c1 rfl, ?_⟩
    exact .call s0 s1
  case argsNone h0 h1 =>
    intro f i' hw hl
    obtain ⟨_, _, rfl, a_t, b_t, n_t, j_t, w_tq0⟩ := hw.uncons
    obtain ⟨_, _, rfl, a_tq, b_tq, n_tq, j_tq, w_o⟩ := w_tq0.uncons
    refine ⟨_, _, w_o, fun _ => by rw [show _ = _ from h1]; rfl, ?_⟩
    exact .argsNone (a_t.trans h0) (a_tq.trans h1)
  case args h0 h1 h2 ih0 =>
    intro f i' hw hl
    obtain ⟨_, _, rfl, a_t, b_t, n_t, j_t, w_i⟩ := hw.uncons
    obtain ⟨_, _, w_tq0, c1, s1⟩ := ih0 _ _ w_i nofun
    obtain ⟨_, _, rfl, a_tq, b_tq, n_tq, j_tq, w_o⟩ := w_tq0.uncons
    refine ⟨_, _, w_o, fun _ => by rw [show _ = _ from h2]; rfl, ?_⟩
    exact .args (a_t.trans h0) s1 (a_tq.trans h2)
  case «prefix» h0 h1 h2 ih0 =>
    intro f i' hw hl
    obtain ⟨_, _, rfl, a_t, b_t, n_t, j_t, w_i⟩ := hw.uncons
    obtain ⟨_, _, w_o, c1, s1⟩ := ih0 _ _ w_i nofun
    refine ⟨_, _, w_o, fun _ => c1 rfl, ?_⟩
    exact .prefix (a_t.trans h0) s1 h2
  case «postfix» h0 h1 h2 h3 ih0 =>
    intro f i' hw hl
    have w_i := hw
    obtain ⟨_, _, w_t0, c0, s0⟩ := ih0 _ _ w_i nofun
    obtain ⟨_, _, rfl, a_t, b_t, n_t, j_t, w_o⟩ := w_t0.uncons
    refine ⟨_, _, w_o, fun _ => by rw [h2]; exact update_closes, ?_⟩
    exact .postfix s0 h1 (a_t.trans h2) (Bool.eq_false_iff.2 fun hb => by
      rcases n_t hb with hb | hb
      · rw [h3] at hb; cases hb
      · rw [h2] at hb; rw [update_line] at hb; cases hb)
  case unary h0 h1 ih0 =>
    intro f i' hw hl
    obtain ⟨_, _, rfl, a_t, b_t, n_t, j_t, w_i⟩ := hw.uncons
    obtain ⟨_, _, w_o, c1, s1⟩ := ih0 _ _ w_i nofun
    refine ⟨_, _, w_o, fun _ => c1 rfl, ?_⟩
    exact .unary (by rw [a_t]; exact h0) s1
  case power h0 h1 h2 ih0 ih1 =>
    intro f i' hw hl
    have w_i := hw
    obtain ⟨_, _, w_t0, c0, s0⟩ := ih0 _ _ w_i nofun
    obtain ⟨_, _, rfl, a_t, b_t, n_t, j_t, w_j⟩ := w_t0.uncons
    obtain ⟨_, _, w_o, c2, s2⟩ := ih1 _ _ w_j nofun
    refine ⟨_, _, w_o, fun _ => c2 rfl, ?_⟩
    exact .power s0 (a_t.trans h1) s2
  case binary h0 h1 h2 h3 h4 ih0 ih1 =>
    intro f i' hw hl
    have w_i := hw
    obtain ⟨_, _, w_t0, c0, s0⟩ := ih0 _ _ w_i nofun
    obtain ⟨_, _, rfl, a_t, b_t, n_t, j_t, w_j⟩ := w_t0.uncons
    obtain ⟨_, _, w_o, c4, s4⟩ := ih1 _ _ w_j nofun
    refine ⟨_, _, w_o, fun _ => c4 rfl, ?_⟩
    exact .binary s0 (a_t.trans h1) h2 h3 s4
  case cond h0 h1 h2 h3 h4 ih0 ih1 ih2 =>
    intro f i' hw hl
    have w_i := hw
    obtain ⟨_, _, w_t0, c0, s0⟩ := ih0 _ _ w_i nofun
    obtain ⟨_, _, rfl, a_t, b_t, n_t, j_t, w_j⟩ := w_t0.uncons
    obtain ⟨_, _, w_tq0, c2, s2⟩ := ih1 _ _ w_j nofun
    obtain ⟨_, _, rfl, a_tq, b_tq, n_tq, j_tq, w_k⟩ := w_tq0.uncons
    obtain ⟨_, _, w_o, c4, s4⟩ := ih2 _ _ w_k nofun
    refine ⟨_, _, w_o, fun _ => c4 rfl, ?_⟩
    exact .cond s0 (a_t.trans h1) s2 (a_tq.trans h3) s4
  case assign h0 h1 h2 h3 h4 ih0 ih1 =>
    intro f i' hw hl
    have w_i := hw
    obtain ⟨_, _, w_t0, c0, s0⟩ := ih0 _ _ w_i nofun
    obtain ⟨_, _, rfl, a_t, b_t, n_t, j_t, w_j⟩ := w_t0.uncons
    obtain ⟨_, _, w_o, c4, s4⟩ := ih1 _ _ w_j nofun
    refine ⟨_, _, w_o, fun _ => c4 rfl, ?_⟩
    exact .assign s0 h1 (a_t.trans h2) h3 s4
  case comma h0 h1 ih0 =>
    intro f i' hw hl
    have w_i := hw
    obtain ⟨_, _, w_o, c0, s0⟩ := ih0 _ _ w_i nofun
    refine ⟨_, _, w_o, fun _ => c0 rfl, ?_⟩
    exact .comma s0 h1
  case weaken h0 h1 ih0 =>
    intro f i' hw hl
    have w_i := hw
    obtain ⟨_, _, w_o, c0, s0⟩ := ih0 _ _ w_i nofun
    refine ⟨_, _, w_o, fun _ => c0 rfl, ?_⟩
    exact .weaken s0 h1
  case listOne h0 ih0 =>
    intro f i' hw hl
    have w_i := hw
    obtain ⟨_, _, w_o, c0, s0⟩ := ih0 _ _ w_i nofun
    refine ⟨_, _, w_o, fun _ => c0 rfl, ?_⟩
    exact .listOne s0
  case listMore h0 h1 h2 ih0 ih1 =>
    intro f i' hw hl
    have w_i := hw
    obtain ⟨_, _, w_t0, c0, s0⟩ := ih0 _ _ w_i nofun
    obtain ⟨_, _, rfl, a_t, b_t, n_t, j_t, w_j⟩ := w_t0.uncons
    obtain ⟨_, _, w_o, c2, s2⟩ := ih1 _ _ w_j nofun
    refine ⟨_, _, w_o, fun _ => c2 rfl, ?_⟩
    exact .listMore s0 (a_t.trans h1) s2
  case elemsNone  =>
    intro f i' hw hl
    have w_o := hw
    refine ⟨_, _, w_o, nofun, ?_⟩
    exact .elemsNone
  case elemsHole h0 h1 ih0 =>
    intro f i' hw hl
    obtain ⟨_, _, rfl, a_t, b_t, n_t, j_t, w_i⟩ := hw.uncons
    obtain ⟨_, _, w_o, c1, s1⟩ := ih0 _ _ w_i nofun
    refine ⟨_, _, w_o, nofun, ?_⟩
    exact .elemsHole (a_t.trans h0) s1
  case elemsMore h0 h1 h2 ih0 ih1 =>
    intro f i' hw hl
    have w_i := hw
    obtain ⟨_, _, w_t0, c0, s0⟩ := ih0 _ _ w_i nofun
    obtain ⟨_, _, rfl, a_t, b_t, n_t, j_t, w_j⟩ := w_t0.uncons
    obtain ⟨_, _, w_o, c2, s2⟩ := ih1 _ _ w_j nofun
    refine ⟨_, _, w_o, nofun, ?_⟩
    exact .elemsMore s0 (a_t.trans h1) s2
  case elemsLast h0 ih0 =>
    intro f i' hw hl
    have w_i := hw
    obtain ⟨_, _, w_o, c0, s0⟩ := ih0 _ _ w_i nofun
    refine ⟨_, _, w_o, nofun, ?_⟩
    exact .elemsLast s0
  case fnAnonymous h0 =>
    intro f i' hw hl
    have w_o := hw
    refine ⟨_, _, w_o, nofun, ?_⟩
    exact .fnAnonymous (by rw [w_o.head]; exact h0)
  case fnNamed h0 =>
    intro f i' hw hl
    obtain ⟨_, _, rfl, a_t, b_t, n_t, j_t, w_o⟩ := hw.uncons
    refine ⟨_, _, w_o, nofun, ?_⟩
    rw [← b_t]
    exact .fnNamed (a_t.trans h0)
  case namesOne h0 =>
    intro f i' hw hl
    obtain ⟨_, _, rfl, a_t, b_t, n_t, j_t, w_o⟩ := hw.uncons
    refine ⟨_, _, w_o, fun _ => by rw [show _ = _ from h0]; rfl, ?_⟩
    rw [← b_t]
    exact .namesOne (a_t.trans h0)
  case namesMore h0 h1 h2 ih0 =>
    intro f i' hw hl
    obtain ⟨_, _, rfl, a_t, b_t, n_t, j_t, w_tq0⟩ := hw.uncons
    obtain ⟨_, _, rfl, a_tq, b_tq, n_tq, j_tq, w_i⟩ := w_tq0.uncons
    obtain ⟨_, _, w_o, c2, s2⟩ := ih0 _ _ w_i nofun
    refine ⟨_, _, w_o, fun _ => c2 rfl, ?_⟩
    rw [← b_t]
    exact .namesMore (a_t.trans h0) (a_tq.trans h1) s2
  case paramsNone h0 h1 =>
    intro f i' hw hl
    obtain ⟨_, _, rfl, a_t, b_t, n_t, j_t, w_tq0⟩ := hw.uncons
    obtain ⟨_, _, rfl, a_tq, b_tq, n_tq, j_tq, w_o⟩ := w_tq0.uncons
    refine ⟨_, _, w_o, fun _ => by rw [show _ = _ from h1]; rfl, ?_⟩
    exact .paramsNone (a_t.trans h0) (a_tq.trans h1)
  case params h0 h1 h2 ih0 =>
    intro f i' hw hl
    obtain ⟨_, _, rfl, a_t, b_t, n_t, j_t, w_i⟩ := hw.uncons
    obtain ⟨_, _, w_tq0, c1, s1⟩ := ih0 _ _ w_i nofun
    obtain ⟨_, _, rfl, a_tq, b_tq, n_tq, j_tq, w_o⟩ := w_tq0.uncons
    refine ⟨_, _, w_o, fun _ => by rw [show _ = _ from h2]; rfl, ?_⟩
    exact .params (a_t.trans h0) s1 (a_tq.trans h2)
  case fn h0 h1 h2 h3 ih0 ih1 ih2 =>
    intro f i' hw hl
    obtain ⟨_, _, rfl, a_t, b_t, n_t, j_t, w_i⟩ := hw.uncons
    obtain ⟨_, _, w_j, c1, s1⟩ := ih0 _ _ w_i nofun
    obtain ⟨_, _, w_k, c2, s2⟩ := ih1 _ _ w_j nofun
    obtain ⟨_, _, w_o, c3, s3⟩ := ih2 _ _ w_k nofun
    refine ⟨_, _, w_o, fun _ => c3 rfl, ?_⟩
    exact .fn (a_t.trans h0) s1 s2 s3
  case declare h0 =>
    intro f i' hw hl
    obtain ⟨_, _, rfl, a_t, b_t, n_t, j_t, w_o⟩ := hw.uncons
    refine ⟨_, _, w_o, fun _ => by rw [show _ = _ from h0]; rfl, ?_⟩
    rw [← b_t]
    exact .declare (a_t.trans h0)
  case declareInit h0 h1 h2 ih0 =>
    intro f i' hw hl
    obtain ⟨_, _, rfl, a_t, b_t, n_t, j_t, w_tq0⟩ := hw.uncons
    obtain ⟨_, _, rfl, a_tq, b_tq, n_tq, j_tq, w_i⟩ := w_tq0.uncons
    obtain ⟨_, _, w_o, c2, s2⟩ := ih0 _ _ w_i nofun
    refine ⟨_, _, w_o, fun _ => c2 rfl, ?_⟩
    rw [← b_t]
    exact .declareInit (a_t.trans h0) (a_tq.trans h1) s2
  case declareKey h0 h1 =>
    intro f i' hw hl
    obtain ⟨_, _, rfl, a_t, b_t, n_t, j_t, w_o⟩ := hw.uncons
    refine ⟨_, _, w_o, fun _ => by rw [show _ = _ from h0]; rfl, ?_⟩
    exact .declareKey (a_t.trans h0) h1
  case declareKeyInit h0 h1 h2 h3 ih0 =>
    intro f i' hw hl
    obtain ⟨_, _, rfl, a_t, b_t, n_t, j_t, w_tq0⟩ := hw.uncons
    obtain ⟨_, _, rfl, a_tq, b_tq, n_tq, j_tq, w_i⟩ := w_tq0.uncons
    obtain ⟨_, _, w_o, c3, s3⟩ := ih0 _ _ w_i nofun
    refine ⟨_, _, w_o, fun _ => c3 rfl, ?_⟩
    exact .declareKeyInit (a_t.trans h0) h1 (a_tq.trans h2) s3
  case declsOne h0 ih0 =>
    intro f i' hw hl
    have w_i := hw
    obtain ⟨_, _, w_o, c0, s0⟩ := ih0 _ _ w_i nofun
    refine ⟨_, _, w_o, fun _ => c0 rfl, ?_⟩
    exact .declsOne s0
  case declsMore h0 h1 h2 ih0 ih1 =>
    intro f i' hw hl
    have w_i := hw
    obtain ⟨_, _, w_t0, c0, s0⟩ := ih0 _ _ w_i nofun
    obtain ⟨_, _, rfl, a_t, b_t, n_t, j_t, w_j⟩ := w_t0.uncons
    obtain ⟨_, _, w_o, c2, s2⟩ := ih1 _ _ w_j nofun
    refine ⟨_, _, w_o, fun _ => c2 rfl, ?_⟩
    exact .declsMore s0 (a_t.trans h1) s2
  case lexInit h0 h1 h2 ih0 =>
    intro f i' hw hl
    obtain ⟨_, _, rfl, a_t, b_t, n_t, j_t, w_tq0⟩ := hw.uncons
    obtain ⟨_, _, rfl, a_tq, b_tq, n_tq, j_tq, w_i⟩ := w_tq0.uncons
    obtain ⟨_, _, w_o, c2, s2⟩ := ih0 _ _ w_i nofun
    refine ⟨_, _, w_o, fun _ => c2 rfl, ?_⟩
    rw [← b_t]
    exact .lexInit (a_t.trans h0) (a_tq.trans h1) s2
  case lexNone h0 =>
    intro f i' hw hl
    obtain ⟨_, _, rfl, a_t, b_t, n_t, j_t, w_o⟩ := hw.uncons
    refine ⟨_, _, w_o, fun _ => by rw [show _ = _ from h0]; rfl, ?_⟩
    rw [← b_t]
    exact .lexNone (a_t.trans h0)
  case lexsOne h0 ih0 =>
    intro f i' hw hl
    have w_i := hw
    obtain ⟨_, _, w_o, c0, s0⟩ := ih0 _ _ w_i nofun
    refine ⟨_, _, w_o, fun _ => c0 rfl, ?_⟩
    exact .lexsOne s0
  case lexsMore h0 h1 h2 ih0 ih1 =>
    intro f i' hw hl
    have w_i := hw
    obtain ⟨_, _, w_t0, c0, s0⟩ := ih0 _ _ w_i nofun
    obtain ⟨_, _, rfl, a_t, b_t, n_t, j_t, w_j⟩ := w_t0.uncons
    obtain ⟨_, _, w_o, c2, s2⟩ := ih1 _ _ w_j nofun
    refine ⟨_, _, w_o, fun _ => c2 rfl, ?_⟩
    exact .lexsMore s0 (a_t.trans h1) s2
  case braces h0 h1 h2 ih0 =>
    intro f i' hw hl
    obtain ⟨_, _, rfl, a_t, b_t, n_t, j_t, w_i⟩ := hw.uncons
    obtain ⟨_, _, w_tq0, c1, s1⟩ := ih0 _ _ w_i nofun
    obtain ⟨_, _, rfl, a_tq, b_tq, n_tq, j_tq, w_o⟩ := w_tq0.uncons
    refine ⟨_, _, w_o, fun _ => by rw [show _ = _ from h2]; rfl, ?_⟩
    exact .braces (a_t.trans h0) s1 (a_tq.trans h2)
  case noCatch h0 =>
    intro f i' hw hl
    have w_o := hw
    refine ⟨_, _, w_o, nofun, ?_⟩
    exact .noCatch (by rw [w_o.head]; exact h0)
  case catchAll h0 h1 ih0 =>
    intro f i' hw hl
    obtain ⟨_, _, rfl, a_t, b_t, n_t, j_t, w_i⟩ := hw.uncons
    obtain ⟨_, _, w_o, c1, s1⟩ := ih0 _ _ w_i nofun
    refine ⟨_, _, w_o, nofun, ?_⟩
    exact .catchAll (a_t.trans h0) s1
  case «catch» h0 h1 h2 h3 h4 ih0 =>
    intro f i' hw hl
    obtain ⟨_, _, rfl, a_t, b_t, n_t, j_t, w_tq0⟩ := hw.uncons
    obtain ⟨_, _, rfl, a_tq, b_tq, n_tq, j_tq, w_tqq0⟩ := w_tq0.uncons
    obtain ⟨_, _, rfl, a_tqq, b_tqq, n_tqq, j_tqq, w_t30⟩ := w_tqq0.uncons
    obtain ⟨_, _, rfl, a_t3, b_t3, n_t3, j_t3, w_i⟩ := w_t30.uncons
    obtain ⟨_, _, w_o, c4, s4⟩ := ih0 _ _ w_i nofun
    refine ⟨_, _, w_o, nofun, ?_⟩
    rw [← b_tqq]
    exact .catch (a_t.trans h0) (a_tq.trans h1) (a_tqq.trans h2) (a_t3.trans h3) s4
  case noFinally h0 =>
    intro f i' hw hl
    have w_o := hw
    refine ⟨_, _, w_o, nofun, ?_⟩
    exact .noFinally (by rw [w_o.head]; exact h0)
  case «finally» h0 h1 ih0 =>
    intro f i' hw hl
    obtain ⟨_, _, rfl, a_t, b_t, n_t, j_t, w_i⟩ := hw.uncons
    obtain ⟨_, _, w_o, c1, s1⟩ := ih0 _ _ w_i nofun
    refine ⟨_, _, w_o, nofun, ?_⟩
    exact .finally (a_t.trans h0) s1
  case casesNone  =>
    intro f i' hw hl
    have w_o := hw
    refine ⟨_, _, w_o, nofun, ?_⟩
    exact .casesNone
  case «case» h0 h1 h2 h3 h4 ih0 ih1 ih2 =>
    intro f i' hw hl
    obtain ⟨_, _, rfl, a_t, b_t, n_t, j_t, w_i⟩ := hw.uncons
    obtain ⟨_, _, w_tq0, c1, s1⟩ := ih0 _ _ w_i nofun
    obtain ⟨_, _, rfl, a_tq, b_tq, n_tq, j_tq, w_j⟩ := w_tq0.uncons
    obtain ⟨_, _, w_k, c3, s3⟩ := ih1 _ _ w_j nofun
    obtain ⟨_, _, w_o, c4, s4⟩ := ih2 _ _ w_k nofun
    refine ⟨_, _, w_o, nofun, ?_⟩
    exact .case (a_t.trans h0) s1 (a_tq.trans h2) s3 s4
  case «default» h0 h1 h2 h3 ih0 ih1 =>
    intro f i' hw hl
    obtain ⟨_, _, rfl, a_t, b_t, n_t, j_t, w_tq0⟩ := hw.uncons
    obtain ⟨_, _, rfl, a_tq, b_tq, n_tq, j_tq, w_i⟩ := w_tq0.uncons
    obtain ⟨_, _, w_j, c2, s2⟩ := ih0 _ _ w_i nofun
    obtain ⟨_, _, w_o, c3, s3⟩ := ih1 _ _ w_j nofun
    refine ⟨_, _, w_o, nofun, ?_⟩
    exact .default (a_t.trans h0) (a_tq.trans h1) s2 s3
  case noLabel h0 =>
    intro f i' hw hl
    have w_i := hw
    obtain ⟨_, _, w_o, s0⟩ := w_i.ends (hl _ rfl).1 h0
    refine ⟨_, _, w_o, nofun, ?_⟩
    exact .noLabel s0
  case label h0 h1 h2 =>
    intro f i' hw hl
    obtain ⟨_, _, rfl, a_t, b_t, n_t, j_t, w_i⟩ := hw.uncons
    obtain ⟨_, _, w_o, s2⟩ := w_i.ends (by rw [show _ = _ from h0]; rfl) h2
    refine ⟨_, _, w_o, nofun, ?_⟩
    rw [← b_t]
    exact .label (a_t.trans h0) (Bool.eq_false_iff.2 fun hb => by have := (hl _ rfl).2 hb; simp [Cfg.nl, h1] at this) s2
  case initNone h0 =>
    intro f i' hw hl
    have w_o := hw
    refine ⟨_, _, w_o, nofun, ?_⟩
    exact .initNone (by rw [w_o.head]; exact h0)
  case initExpr h0 h1 ih0 =>
    intro f i' hw hl
    have w_i := hw
    obtain ⟨_, _, w_o, c1, s1⟩ := ih0 _ _ w_i nofun
    refine ⟨_, _, w_o, nofun, ?_⟩
    exact .initExpr (by rw [w_i.head]; exact h0) s1
  case initSeq h0 h1 h2 h3 ih0 ih1 =>
    intro f i' hw hl
    have w_i := hw
    obtain ⟨_, _, w_t0, c1, s1⟩ := ih0 _ _ w_i nofun
    obtain ⟨_, _, rfl, a_t, b_t, n_t, j_t, w_j⟩ := w_t0.uncons
    obtain ⟨_, _, w_o, c3, s3⟩ := ih1 _ _ w_j nofun
    refine ⟨_, _, w_o, nofun, ?_⟩
    exact .initSeq (by rw [w_i.head]; exact h0) s1 (a_t.trans h2) s3
  case initVar h0 h1 ih0 =>
    intro f i' hw hl
    obtain ⟨_, _, rfl, a_t, b_t, n_t, j_t, w_i⟩ := hw.uncons
    obtain ⟨_, _, w_o, c1, s1⟩ := ih0 _ _ w_i nofun
    refine ⟨_, _, w_o, nofun, ?_⟩
    exact .initVar (a_t.trans h0) s1
  case initLex h0 h1 ih0 =>
    intro f i' hw hl
    obtain ⟨_, _, rfl, a_t, b_t, n_t, j_t, w_i⟩ := hw.uncons
    obtain ⟨_, _, w_o, c1, s1⟩ := ih0 _ _ w_i nofun
    refine ⟨_, _, w_o, nofun, ?_⟩
    exact .initLex (by rw [lexKind, Kw, Kw, a_t]; exact h0) s1
  case optNone h0 =>
    intro f i' hw hl
    have w_o := hw
    refine ⟨_, _, w_o, nofun, ?_⟩
    exact .optNone (by rw [w_o.head]; exact h0)
  case optSome h0 ih0 =>
    intro f i' hw hl
    have w_i := hw
    obtain ⟨_, _, w_o, c0, s0⟩ := ih0 _ _ w_i nofun
    refine ⟨_, _, w_o, nofun, ?_⟩
    exact .optSome s0
  case empty h0 =>
    intro f i' hw hl
    obtain ⟨_, _, rfl, a_t, b_t, n_t, j_t, w_o⟩ := hw.uncons
    refine ⟨_, _, w_o, nofun, ?_⟩
    exact .empty (a_t.trans h0)
  case expr h0 h1 h2 ih0 =>
    intro f i' hw hl
    have w_i := hw
    obtain ⟨_, _, w_j, c1, s1⟩ := ih0 _ _ w_i nofun
    obtain ⟨_, _, w_o, s2⟩ := w_j.ends (c1 rfl) h2
    refine ⟨_, _, w_o, nofun, ?_⟩
    exact .expr (by rw [w_i.head]; exact h0) s1 s2
  case fnStmt h0 ih0 =>
    intro f i' hw hl
    have w_i := hw
    obtain ⟨_, _, w_o, c0, s0⟩ := ih0 _ _ w_i nofun
    refine ⟨_, _, w_o, nofun, ?_⟩
    exact .fnStmt s0
  case «var» h0 h1 h2 ih0 =>
    intro f i' hw hl
    obtain ⟨_, _, rfl, a_t, b_t, n_t, j_t, w_i⟩ := hw.uncons
    obtain ⟨_, _, w_j, c1, s1⟩ := ih0 _ _ w_i nofun
    obtain ⟨_, _, w_o, s2⟩ := w_j.ends (c1 rfl) h2
    refine ⟨_, _, w_o, nofun, ?_⟩
    exact .var (a_t.trans h0) s1 s2
  case block h0 ih0 =>
    intro f i' hw hl
    have w_i := hw
    obtain ⟨_, _, w_o, c0, s0⟩ := ih0 _ _ w_i nofun
    refine ⟨_, _, w_o, nofun, ?_⟩
    exact .block s0
  case labeled h0 h1 h2 h3 ih0 =>
    intro f i' hw hl
    obtain ⟨_, _, rfl, a_t, b_t, n_t, j_t, w_tq0⟩ := hw.uncons
    obtain ⟨_, _, rfl, a_tq, b_tq, n_tq, j_tq, w_i⟩ := w_tq0.uncons
    obtain ⟨_, _, w_o, c3, s3⟩ := ih0 _ _ w_i nofun
    refine ⟨_, _, w_o, nofun, ?_⟩
    rw [← b_t]
    exact .labeled (a_t.trans h0) (a_tq.trans h1) (by rw [b_t]; exact h2) (by rw [b_t]; exact s3)
  case «break» h0 h1 ih0 =>
    intro f i' hw hl
    obtain ⟨_, _, rfl, a_t, b_t, n_t, j_t, w_i⟩ := hw.uncons
    obtain ⟨_, _, w_o, c1, s1⟩ := ih0 _ _ w_i (fun _ _ => ⟨by rw [show _ = _ from h0]; rfl, j_t (by rw [show _ = _ from h0]; rfl)⟩)
    refine ⟨_, _, w_o, nofun, ?_⟩
    exact .break (a_t.trans h0) s1
  case «continue» h0 h1 ih0 =>
    intro f i' hw hl
    obtain ⟨_, _, rfl, a_t, b_t, n_t, j_t, w_i⟩ := hw.uncons
    obtain ⟨_, _, w_o, c1, s1⟩ := ih0 _ _ w_i (fun _ _ => ⟨by rw [show _ = _ from h0]; rfl, j_t (by rw [show _ = _ from h0]; rfl)⟩)
    refine ⟨_, _, w_o, nofun, ?_⟩
    exact .continue (a_t.trans h0) s1
  case debugger h0 h1 =>
    intro f i' hw hl
    obtain ⟨_, _, rfl, a_t, b_t, n_t, j_t, w_i⟩ := hw.uncons
    obtain ⟨_, _, w_o, s1⟩ := w_i.ends (by rw [show _ = _ from h0]; rfl) h1
    refine ⟨_, _, w_o, nofun, ?_⟩
    exact .debugger (a_t.trans h0) s1
  case «return» h0 h1 h2 =>
    intro f i' hw hl
    obtain ⟨_, _, rfl, a_t, b_t, n_t, j_t, w_i⟩ := hw.uncons
    obtain ⟨_, _, w_o, s2⟩ := w_i.ends (by rw [show _ = _ from h1]; rfl) h2
    refine ⟨_, _, w_o, nofun, ?_⟩
    exact .return h0 (a_t.trans h1) s2
  case returnValue h0 h1 h2 h3 h4 ih0 =>
    intro f i' hw hl
    obtain ⟨_, _, rfl, a_t, b_t, n_t, j_t, w_i⟩ := hw.uncons
    obtain ⟨_, _, w_j, c3, s3⟩ := ih0 _ _ w_i nofun
    obtain ⟨_, _, w_o, s4⟩ := w_j.ends (c3 rfl) h4
    refine ⟨_, _, w_o, nofun, ?_⟩
    exact .returnValue h0 (a_t.trans h1) (Bool.eq_false_iff.2 fun hb => by
      have := j_t (by rw [show _ = _ from h1]; rfl) hb
      rw [h2] at this; cases this) s3 s4
  case «throw» h0 h1 h2 ih0 =>
    intro f i' hw hl
    obtain ⟨_, _, rfl, a_t, b_t, n_t, j_t, w_i⟩ := hw.uncons
    obtain ⟨_, _, w_j, c1, s1⟩ := ih0 _ _ w_i nofun
    obtain ⟨_, _, w_o, s2⟩ := w_j.ends (c1 rfl) h2
    refine ⟨_, _, w_o, nofun, ?_⟩
    exact .throw (a_t.trans h0) s1 s2
  case «try» h0 h1 h2 h3 ih0 ih1 ih2 =>
    intro f i' hw hl
    obtain ⟨_, _, rfl, a_t, b_t, n_t, j_t, w_i⟩ := hw.uncons
    obtain ⟨_, _, w_j, c1, s1⟩ := ih0 _ _ w_i nofun
    obtain ⟨_, _, w_k, c2, s2⟩ := ih1 _ _ w_j nofun
    obtain ⟨_, _, w_o, c3, s3⟩ := ih2 _ _ w_k nofun
    refine ⟨_, _, w_o, nofun, ?_⟩
    exact .try (a_t.trans h0) s1 s2 s3
  case «switch» h0 h1 h2 h3 h4 h5 h6 ih0 ih1 =>
    intro f i' hw hl
    obtain ⟨_, _, rfl, a_t, b_t, n_t, j_t, w_tq0⟩ := hw.uncons
    obtain ⟨_, _, rfl, a_tq, b_tq, n_tq, j_tq, w_i⟩ := w_tq0.uncons
    obtain ⟨_, _, w_tqq0, c2, s2⟩ := ih0 _ _ w_i nofun
    obtain ⟨_, _, rfl, a_tqq, b_tqq, n_tqq, j_tqq, w_t30⟩ := w_tqq0.uncons
    obtain ⟨_, _, rfl, a_t3, b_t3, n_t3, j_t3, w_j⟩ := w_t30.uncons
    obtain ⟨_, _, w_t40, c5, s5⟩ := ih1 _ _ w_j nofun
    obtain ⟨_, _, rfl, a_t4, b_t4, n_t4, j_t4, w_o⟩ := w_t40.uncons
    refine ⟨_, _, w_o, nofun, ?_⟩
    exact .switch (a_t.trans h0) (a_tq.trans h1) s2 (a_tqq.trans h3) (a_t3.trans h4) s5 (a_t4.trans h6)
  case «while» h0 h1 h2 h3 h4 ih0 ih1 =>
    intro f i' hw hl
    obtain ⟨_, _, rfl, a_t, b_t, n_t, j_t, w_tq0⟩ := hw.uncons
    obtain ⟨_, _, rfl, a_tq, b_tq, n_tq, j_tq, w_i⟩ := w_tq0.uncons
    obtain ⟨_, _, w_tqq0, c2, s2⟩ := ih0 _ _ w_i nofun
    obtain ⟨_, _, rfl, a_tqq, b_tqq, n_tqq, j_tqq, w_j⟩ := w_tqq0.uncons
    obtain ⟨_, _, w_o, c4, s4⟩ := ih1 _ _ w_j nofun
    refine ⟨_, _, w_o, nofun, ?_⟩
    exact .while (a_t.trans h0) (a_tq.trans h1) s2 (a_tqq.trans h3) s4
  case doWhile h0 h1 h2 h3 h4 h5 h6 ih0 ih1 =>
    intro f i' hw hl
    obtain ⟨_, _, rfl, a_t, b_t, n_t, j_t, w_i⟩ := hw.uncons
    obtain ⟨_, _, w_tq0, c1, s1⟩ := ih0 _ _ w_i nofun
    obtain ⟨_, _, rfl, a_tq, b_tq, n_tq, j_tq, w_tqq0⟩ := w_tq0.uncons
    obtain ⟨_, _, rfl, a_tqq, b_tqq, n_tqq, j_tqq, w_j⟩ := w_tqq0.uncons
    obtain ⟨_, _, w_t30, c4, s4⟩ := ih1 _ _ w_j nofun
    obtain ⟨_, _, rfl, a_t3, b_t3, n_t3, j_t3, w_o⟩ := w_t30.uncons
    refine ⟨_, _, w_o, nofun, ?_⟩
    exact .doWhile (a_t.trans h0) s1 (a_tq.trans h2) (a_tqq.trans h3) s4 (a_t3.trans h5) (by rw [w_o.head]; exact h6)
  case doWhileSemi h0 h1 h2 h3 h4 h5 h6 ih0 ih1 =>
    intro f i' hw hl
    obtain ⟨_, _, rfl, a_t, b_t, n_t, j_t, w_i⟩ := hw.uncons
    obtain ⟨_, _, w_tq0, c1, s1⟩ := ih0 _ _ w_i nofun
    obtain ⟨_, _, rfl, a_tq, b_tq, n_tq, j_tq, w_tqq0⟩ := w_tq0.uncons
    obtain ⟨_, _, rfl, a_tqq, b_tqq, n_tqq, j_tqq, w_j⟩ := w_tqq0.uncons
    obtain ⟨_, _, w_t30, c4, s4⟩ := ih1 _ _ w_j nofun
    obtain ⟨_, _, rfl, a_t3, b_t3, n_t3, j_t3, w_t40⟩ := w_t30.uncons
    obtain ⟨_, _, rfl, a_t4, b_t4, n_t4, j_t4, w_o⟩ := w_t40.uncons
    refine ⟨_, _, w_o, nofun, ?_⟩
    exact .doWhileSemi (a_t.trans h0) s1 (a_tq.trans h2) (a_tqq.trans h3) s4 (a_t3.trans h5) (a_t4.trans h6)
  case «with» h0 h1 h2 h3 h4 ih0 ih1 =>
    intro f i' hw hl
    obtain ⟨_, _, rfl, a_t, b_t, n_t, j_t, w_tq0⟩ := hw.uncons
    obtain ⟨_, _, rfl, a_tq, b_tq, n_tq, j_tq, w_i⟩ := w_tq0.uncons
    obtain ⟨_, _, w_tqq0, c2, s2⟩ := ih0 _ _ w_i nofun
    obtain ⟨_, _, rfl, a_tqq, b_tqq, n_tqq, j_tqq, w_j⟩ := w_tqq0.uncons
    obtain ⟨_, _, w_o, c4, s4⟩ := ih1 _ _ w_j nofun
    refine ⟨_, _, w_o, nofun, ?_⟩
    exact .with (a_t.trans h0) (a_tq.trans h1) s2 (a_tqq.trans h3) s4
  case «for» h0 h1 h2 h3 h4 h5 h6 h7 h8 ih0 ih1 ih2 ih3 =>
    intro f i' hw hl
    obtain ⟨_, _, rfl, a_t, b_t, n_t, j_t, w_tq0⟩ := hw.uncons
    obtain ⟨_, _, rfl, a_tq, b_tq, n_tq, j_tq, w_i⟩ := w_tq0.uncons
    obtain ⟨_, _, w_t10, c2, s2⟩ := ih0 _ _ w_i nofun
    obtain ⟨_, _, rfl, a_t1, b_t1, n_t1, j_t1, w_j⟩ := w_t10.uncons
    obtain ⟨_, _, w_t20, c4, s4⟩ := ih1 _ _ w_j nofun
    obtain ⟨_, _, rfl, a_t2, b_t2, n_t2, j_t2, w_k⟩ := w_t20.uncons
    obtain ⟨_, _, w_t30, c6, s6⟩ := ih2 _ _ w_k nofun
    obtain ⟨_, _, rfl, a_t3, b_t3, n_t3, j_t3, w_l⟩ := w_t30.uncons
    obtain ⟨_, _, w_o, c8, s8⟩ := ih3 _ _ w_l nofun
    refine ⟨_, _, w_o, nofun, ?_⟩
    exact .for (a_t.trans h0) (a_tq.trans h1) s2 (a_t1.trans h3) s4 (a_t2.trans h5) s6 (a_t3.trans h7) s8
  case forIn h0 h1 h2 h3 h4 h5 h6 h7 ih0 ih1 ih2 =>
    intro f i' hw hl
    obtain ⟨_, _, rfl, a_t, b_t, n_t, j_t, w_tq0⟩ := hw.uncons
    obtain ⟨_, _, rfl, a_tq, b_tq, n_tq, j_tq, w_i⟩ := w_tq0.uncons
    obtain ⟨_, _, w_t10, c3, s3⟩ := ih0 _ _ w_i nofun
    obtain ⟨_, _, rfl, a_t1, b_t1, n_t1, j_t1, w_j⟩ := w_t10.uncons
    obtain ⟨_, _, w_t20, c5, s5⟩ := ih1 _ _ w_j nofun
    obtain ⟨_, _, rfl, a_t2, b_t2, n_t2, j_t2, w_k⟩ := w_t20.uncons
    obtain ⟨_, _, w_o, c7, s7⟩ := ih2 _ _ w_k nofun
    refine ⟨_, _, w_o, nofun, ?_⟩
    exact .forIn (a_t.trans h0) (a_tq.trans h1) (by rw [w_i.head]; exact h2) s3 (a_t1.trans h4) s5 (a_t2.trans h6) s7
  case forVarIn h0 h1 h2 h3 h4 h5 h6 h7 ih0 ih1 ih2 =>
    intro f i' hw hl
    obtain ⟨_, _, rfl, a_t, b_t, n_t, j_t, w_tq0⟩ := hw.uncons
    obtain ⟨_, _, rfl, a_tq, b_tq, n_tq, j_tq, w_t00⟩ := w_tq0.uncons
    obtain ⟨_, _, rfl, a_t0, b_t0, n_t0, j_t0, w_i⟩ := w_t00.uncons
    obtain ⟨_, _, w_t10, c3, s3⟩ := ih0 _ _ w_i nofun
    obtain ⟨_, _, rfl, a_t1, b_t1, n_t1, j_t1, w_j⟩ := w_t10.uncons
    obtain ⟨_, _, w_t20, c5, s5⟩ := ih1 _ _ w_j nofun
    obtain ⟨_, _, rfl, a_t2, b_t2, n_t2, j_t2, w_k⟩ := w_t20.uncons
    obtain ⟨_, _, w_o, c7, s7⟩ := ih2 _ _ w_k nofun
    refine ⟨_, _, w_o, nofun, ?_⟩
    exact .forVarIn (a_t.trans h0) (a_tq.trans h1) (a_t0.trans h2) s3 (a_t1.trans h4) s5 (a_t2.trans h6) s7
  case forLexIn h0 h1 h2 h3 h4 h5 h6 h7 ih0 ih1 =>
    intro f i' hw hl
    obtain ⟨_, _, rfl, a_t, b_t, n_t, j_t, w_tq0⟩ := hw.uncons
    obtain ⟨_, _, rfl, a_tq, b_tq, n_tq, j_tq, w_t00⟩ := w_tq0.uncons
    obtain ⟨_, _, rfl, a_t0, b_t0, n_t0, j_t0, w_n0⟩ := w_t00.uncons
    obtain ⟨_, _, rfl, a_n, b_n, n_n, j_n, w_t10⟩ := w_n0.uncons
    obtain ⟨_, _, rfl, a_t1, b_t1, n_t1, j_t1, w_i⟩ := w_t10.uncons
    obtain ⟨_, _, w_t20, c5, s5⟩ := ih0 _ _ w_i nofun
    obtain ⟨_, _, rfl, a_t2, b_t2, n_t2, j_t2, w_j⟩ := w_t20.uncons
    obtain ⟨_, _, w_o, c7, s7⟩ := ih1 _ _ w_j nofun
    refine ⟨_, _, w_o, nofun, ?_⟩
    rw [← b_n]
    exact .forLexIn (a_t.trans h0) (a_tq.trans h1) (by rw [lexKind, Kw, Kw, a_t0]; exact h2) (a_n.trans h3) (a_t1.trans h4) s5 (a_t2.trans h6) s7
  case «if» h0 h1 h2 h3 h4 h5 ih0 ih1 =>
    intro f i' hw hl
    obtain ⟨_, _, rfl, a_t, b_t, n_t, j_t, w_tq0⟩ := hw.uncons
    obtain ⟨_, _, rfl, a_tq, b_tq, n_tq, j_tq, w_i⟩ := w_tq0.uncons
    obtain ⟨_, _, w_tqq0, c2, s2⟩ := ih0 _ _ w_i nofun
    obtain ⟨_, _, rfl, a_tqq, b_tqq, n_tqq, j_tqq, w_j⟩ := w_tqq0.uncons
    obtain ⟨_, _, w_o, c4, s4⟩ := ih1 _ _ w_j nofun
    refine ⟨_, _, w_o, nofun, ?_⟩
    exact .if (a_t.trans h0) (a_tq.trans h1) s2 (a_tqq.trans h3) s4 (by rw [w_o.head]; exact h5)
  case ifElse h0 h1 h2 h3 h4 h5 h6 ih0 ih1 ih2 =>
    intro f i' hw hl
    obtain ⟨_, _, rfl, a_t, b_t, n_t, j_t, w_tq0⟩ := hw.uncons
    obtain ⟨_, _, rfl, a_tq, b_tq, n_tq, j_tq, w_i⟩ := w_tq0.uncons
    obtain ⟨_, _, w_tqq0, c2, s2⟩ := ih0 _ _ w_i nofun
    obtain ⟨_, _, rfl, a_tqq, b_tqq, n_tqq, j_tqq, w_j⟩ := w_tqq0.uncons
    obtain ⟨_, _, w_t30, c4, s4⟩ := ih1 _ _ w_j nofun
    obtain ⟨_, _, rfl, a_t3, b_t3, n_t3, j_t3, w_k⟩ := w_t30.uncons
    obtain ⟨_, _, w_o, c6, s6⟩ := ih2 _ _ w_k nofun
    refine ⟨_, _, w_o, nofun, ?_⟩
    exact .ifElse (a_t.trans h0) (a_tq.trans h1) s2 (a_tqq.trans h3) s4 (a_t3.trans h5) s6
  case fnPart h0 ih0 =>
    intro f i' hw hl
    have w_i := hw
    obtain ⟨_, _, w_o, c0, s0⟩ := ih0 _ _ w_i nofun
    refine ⟨_, _, w_o, nofun, ?_⟩
    exact .fnPart s0
  case lexPart h0 h1 h2 ih0 =>
    intro f i' hw hl
    obtain ⟨_, _, rfl, a_t, b_t, n_t, j_t, w_i⟩ := hw.uncons
    obtain ⟨_, _, w_j, c1, s1⟩ := ih0 _ _ w_i nofun
    obtain ⟨_, _, w_o, s2⟩ := w_j.ends (c1 rfl) h2
    refine ⟨_, _, w_o, nofun, ?_⟩
    exact .lexPart (by rw [lexKind, Kw, Kw, a_t]; exact h0) s1 s2
  case stmtPart h0 h1 h2 ih0 =>
    intro f i' hw hl
    have w_i := hw
    obtain ⟨_, _, w_o, c2, s2⟩ := ih0 _ _ w_i nofun
    refine ⟨_, _, w_o, nofun, ?_⟩
    exact .stmtPart (by rw [w_i.head]; exact h0) (by rw [w_i.head, w_i.second]; exact h1) s2
  case stop  =>
    intro f i' hw hl
    have w_o := hw
    refine ⟨_, _, w_o, nofun, ?_⟩
    exact .stop
  case more h0 h1 ih0 ih1 =>
    intro f i' hw hl
    have w_i := hw
    obtain ⟨_, _, w_j, c0, s0⟩ := ih0 _ _ w_i nofun
    obtain ⟨_, _, w_o, c1, s1⟩ := ih1 _ _ w_j nofun
    refine ⟨_, _, w_o, nofun, ?_⟩
    exact .more s0 s1
end Ressa.Gr
