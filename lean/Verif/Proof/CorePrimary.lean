import Verif.Proof.CoreMeans

/-!
# Templates, arguments, objects, arrays and primary expressions

One theorem for each rule of `Core`.
-/

namespace Ressa.Gr

variable {C : Cfg}

set_option linter.unusedVariables false
set_option linter.unusedSimpArgs false

theorem cooked {mid : Txt} {a : Char} {e : Txt} (ha : blen [a] = 1) :
    (if blen e ≤ blen (a :: (mid ++ e)) then
      sliceB (a :: (mid ++ e)) 1 (blen (a :: (mid ++ e)) - blen e) else none) = some mid := by
  have h : blen (a :: (mid ++ e)) = blen [a] + (blen mid + blen e) := by
    rw [← blen_append, ← blen_append]; rfl
  rw [if_pos (by omega)]
  refine sliceB_iff.2 ⟨[a], e, by simp, ha, ?_⟩
  omega

theorem tplPiece {Γ f t mid a e l o} (ht : t.item.token = .template l)
    (hl : l = .head ∨ l = .body) (h : C.text t = a :: (mid ++ e)) (ha : blen [a] = 1)
    (he : blen e = 2) : Exec C Γ f (t :: o) templateElement ⟨C.text t, mid, false⟩ f o := by
  have hc : (if 2 ≤ blen (C.text t) then sliceB (C.text t) 1 (blen (C.text t) - 2) else none) =
      some mid := by rw [h, ← he]; exact cooked ha
  rcases hl with rfl | rfl <;> ex

theorem tplPieceEnd {Γ f t mid a e l o} (ht : t.item.token = .template l)
    (hl : l = .tail ∨ l = .noSub) (h : C.text t = a :: (mid ++ e)) (ha : blen [a] = 1)
    (he : blen e = 1) : Exec C Γ f (t :: o) templateElement ⟨C.text t, mid, true⟩ f o := by
  have hc : (if 1 ≤ blen (C.text t) then sliceB (C.text t) 1 (blen (C.text t) - 1) else none) =
      some mid := by
    have := cooked (mid := mid) (e := e) ha
    rw [he] at this
    rw [h]; exact this
  rcases hl with rfl | rfl <;> ex

theorem splitLastSlash_none {t : Txt} (h : '/' ∉ t) : splitLastSlash t = none := by
  induction t with
  | nil => rfl
  | cons c t ih =>
    simp only [List.mem_cons, not_or] at h
    simp [splitLastSlash, ih h.2, Ne.symm h.1]

theorem splitLastSlash_append {a t : Txt} (h : '/' ∉ t) :
    splitLastSlash (a ++ '/' :: t) = some (a, t) := by
  induction a with
  | nil => simp [splitLastSlash, splitLastSlash_none h]
  | cons c a ih => simp [splitLastSlash, ih]

theorem qualKey_of {t : Token} (h : keyStart t = true) : qualKey t = true := by
  cases t <;> simp_all [keyStart, qualKey]

theorem Means.tplLast {Γ e t mid i o} (h1 : Ok C Γ (.expression e) i (t :: o))
    (h2 : t.item.token = .template .tail) (h3 : C.text t = '}' :: (mid ++ ['`'])) :
    Means C Γ (.tplTail [e] [⟨C.text t, mid, true⟩]) i o := by
  have hq : ∀ f, Exec C Γ f (t :: o) templateElement ⟨C.text t, mid, true⟩ f o := fun f =>
    tplPieceEnd h2 (.inl rfl) h3 rfl rfl
  pre
  more
  halt

theorem Means.tplMore {Γ e t mid es qs i j o} (h1 : Ok C Γ (.expression e) i (t :: j))
    (h2 : t.item.token = .template .body) (h3 : C.text t = '}' :: (mid ++ ['$', '{']))
    (h4 : Ok C Γ (.tplTail es qs) j o) :
    Means C Γ (.tplTail (e :: es) (⟨C.text t, mid, false⟩ :: qs)) i o := by
  have hq : ∀ f, Exec C Γ f (t :: j) templateElement ⟨C.text t, mid, false⟩ f j := fun f =>
    tplPiece h2 (.inr rfl) h3 rfl rfl
  pre
  more

theorem Means.tplPlain {Γ t mid o} (h1 : t.item.token = .template .noSub)
    (h2 : C.text t = '`' :: (mid ++ ['`'])) :
    Means C Γ (.tpl [] [⟨C.text t, mid, true⟩]) (t :: o) o := by
  have hq : ∀ f, Exec C Γ f (t :: o) templateElement ⟨C.text t, mid, true⟩ f o := fun f =>
    tplPieceEnd h1 (.inr rfl) h2 rfl rfl
  fw
  halt

theorem Means.tpl {Γ t mid es qs i o} (h1 : t.item.token = .template .head)
    (h2 : C.text t = '`' :: (mid ++ ['$', '{'])) (h3 : Ok C Γ (.tplTail es qs) i o) :
    Means C Γ (.tpl es (⟨C.text t, mid, false⟩ :: qs)) (t :: i) o := by
  have hq : ∀ f, Exec C Γ f (t :: i) templateElement ⟨C.text t, mid, false⟩ f i := fun f =>
    tplPiece h1 (.inl rfl) h2 rfl rfl
  fw

theorem Means.argSpread {Γ t f e i o} (h1 : Is t .spread) (h2 : Ok C Γ (.assign f e) i o) :
    Means C Γ (.arg (.spread e)) (t :: i) o := by
  constructor <;> fw

theorem Means.arg {Γ f e i o} (h1 : Ok C Γ (.assign f e) i o) :
    Means C Γ (.arg e) i o := by
  constructor <;> fw

theorem Means.argLast {Γ e i o} (h1 : Ok C Γ (.arg e) i o) (h2 : head o = .punct .closeParen) :
    Means C Γ (.argSeq [e]) i o := by
  constructor <;> (pre; final)

theorem Means.argTrail {Γ e t i o} (h1 : Ok C Γ (.arg e) i (t :: o)) (h2 : Is t .comma)
    (h3 : head o = .punct .closeParen) :
    Means C Γ (.argSeq [e]) i o := by
  constructor <;> (pre; final)

theorem Means.argMore {Γ e l t i j o} (h1 : Ok C Γ (.arg e) i (t :: j)) (h2 : Is t .comma)
    (h3 : Ok C Γ (.argSeq l) j o) :
    Means C Γ (.argSeq (e :: l)) i o := by
  constructor <;> (pre; more)

theorem commaSep_next {Γ f i} (h1 : C.tolerant = true) (h2 : head i ≠ .punct .comma) :
    Exec C Γ f i expectCommaSep () f i := by
  have h3 : Exec C Γ f i (do if ← atPunct .comma then skipItem else pure () : P Unit) () f i := by
    ex
  intro s hs
  have hT : s.tolerant = true := (congrArg Cfg.tolerant hs.at_.cfg).trans h1
  unfold expectCommaSep
  simpa [hT] using h3 s hs

theorem Means.argNext {Γ e l i j o} (h1 : Ok C Γ (.arg e) i j) (h2 : C.tolerant = true)
    (h3 : head j ≠ .punct .comma) (h4 : Ok C Γ (.argSeq l) j o) :
    Means C Γ (.argSeq (e :: l)) i o := by
  have hc : ∀ f, Exec C Γ f j expectCommaSep () f j := fun f => commaSep_next h2 h3
  constructor <;> (pre; more)

theorem Means.argsNone {Γ t t' o} (h1 : Is t .openParen) (h2 : Is t' .closeParen) :
    Means C Γ (.args []) (t :: t' :: o) o := by
  constructor <;> fw

theorem Means.args {Γ l t t' i o} (h1 : Is t .openParen) (h2 : Ok C Γ (.argSeq l) i (t' :: o))
    (h3 : Is t' .closeParen) :
    Means C Γ (.args l) (t :: i) o := by
  constructor <;> fw

theorem Means.propIdent {Γ t o} (h1 : t.item.token = .ident) (h2 : C.text t ≠ t!"async") :
    Means C Γ (.propKey (.expr (.ident (C.text t))) (atBracket o)) (t :: o) o := by
  refine ⟨t, o, rfl, by simp [h1], fun f => ?_⟩
  ex

theorem Means.propKey {Γ k i o} (h1 : head i ≠ .ident) (h2 : Ok C Γ (.key k) i o) :
    Means C Γ (.propKey k (atBracket i)) i o := by
  unpack
  obtain ⟨t, j, rfl⟩ : ∃ t j, i = t :: j := by
    cases i with
    | nil => simp [head] at *
    | cons t j => exact ⟨t, j, rfl⟩
  refine ⟨t, j, rfl, ‹_›, fun f => ?_⟩
  simp only [head_cons] at *
  ex

theorem Means.propInit {Γ f k c t g e i j o} (h1 : Ok C Γ (.propKey k c) i (t :: j))
    (h2 : Is t .colon) (h3 : Ok C Γ (.single g e) j o) :
    Means C Γ (.prop f (.property (.mk k (.expr e) .init false c false)) (g.and f)) i o := by
  pre
  rename_i acc ha
  obtain ⟨b, l⟩ := acc
  cases c <;> cases b <;> ex <;> simp_all [isProtoInit]

theorem Means.propAssign {Γ f k c t g e i j o} (h1 : Ok C Γ (.propKey k c) i (t :: j))
    (h2 : Is t .colon) (h4 : Ok C Γ (.assign g e) j o)
    (h5 : f.1 = true ∨ C.tolerant = true) :
    Means C Γ (.prop f (.property (.mk k (.expr e) .init false c false)) (g.and f)) i o := by
  pre
  rename_i acc ha
  obtain ⟨b, l⟩ := acc
  cases c <;> cases b <;> ex <;> simp_all [isProtoInit]

theorem Means.propMethod {Γ f k c v i j o} (h1 : Ok C Γ (.propKey k c) i j)
    (h2 : Ok C Γ (.method false false v) j o) :
    Means C Γ (.prop f (.property (.mk k v .init true c false)) (false, false)) i o := by fw <;> simp_all [isProtoInit, atBracket, Is, head_cons]

theorem Means.propAsync {Γ f t k v i j o} (h1 : t.item.token = .ident)
    (h2 : C.text t = t!"async") (h3 : Ok C Γ (.key k) i j)
    (h4 : Ok C Γ (.method true false v) j o) :
    Means C Γ (.prop f (.property (.mk k v .init true (atBracket i) false)) (false, false)) (t ::
    i) o := by
  have := qualKey_of h3.start
  fw <;> simp_all [isProtoInit, atBracket, Is, head_cons]

theorem Means.propAsyncShort {Γ f t k i o} (h1 : t.item.token = .ident)
    (h2 : C.text t = t!"async") (h3 : Ok C Γ (.key k) i o)
    (h4 : head o = .punct .comma ∨ head o = .punct .closeBrace) :
    Means C Γ (.prop f (.property (.mk k .none .init false (atBracket i) true)) f) (t :: i) o := by
  have := qualKey_of h3.start
  pre
  rcases h4 with h4 | h4 <;> ex <;> simp_all [isProtoInit, atBracket, Is, head_cons]

theorem Means.propAsyncInit {Γ f t t' k g e i j o} (h1 : t.item.token = .ident)
    (h2 : C.text t = t!"async") (h3 : Ok C Γ (.key k) i (t' :: j)) (h4 : Is t' .assign)
    (h5 : Ok C Γ (.assign g e) j o) :
    Means C Γ (.prop f (.property (.mk k (.expr e) .init false (atBracket i) true)) f) (t :: i) o
    := by
  have := qualKey_of h3.start
  fw <;> simp_all [isProtoInit, atBracket, Is, head_cons]

theorem Means.propGet {Γ f t k v i j o} (h1 : t.item.token = .ident) (h2 : C.text t = t!"get")
    (h3 : Ok C Γ (.key k) i j) (h4 : Ok C Γ (.getter v) j o) :
    Means C Γ (.prop f (.property (.mk k v .get false (atBracket i) false)) (false, false)) (t ::
    i) o := by
  have := qualKey_of h3.start
  fw <;> simp_all [isProtoInit, atBracket, Is, head_cons]

theorem Means.propSet {Γ f t k v i j o} (h1 : t.item.token = .ident) (h2 : C.text t = t!"set")
    (h3 : Ok C Γ (.key k) i j) (h4 : Ok C Γ (.setter v) j o) :
    Means C Γ (.prop f (.property (.mk k v .set false (atBracket i) false)) (false, false)) (t ::
    i) o := by
  have := qualKey_of h3.start
  fw <;> simp_all [isProtoInit, atBracket, Is, head_cons]

theorem Means.propGen {Γ f t k v i j o} (h1 : Is t .asterisk) (h2 : C.text t ≠ t!"get")
    (h3 : C.text t ≠ t!"set") (h4 : Ok C Γ (.key k) i j) (h5 : Ok C Γ (.method false true v) j o) :
    Means C Γ (.prop f (.property (.mk k v .init true (atBracket i) false)) (false, false)) (t ::
    i) o := by
  have := qualKey_of h4.start
  fw <;> simp_all [isProtoInit, atBracket, Is, head_cons]

theorem Means.propShort {Γ f t o} (h1 : t.item.token = .ident) (h2 : C.text t ≠ t!"async")
    (h3 : head o = .punct .comma ∨ head o = .punct .closeBrace) :
    Means C Γ (.prop f (.property (.mk (.expr (.ident (C.text t))) .none .init false false true))
    f) (t :: o) o := by
  pre
  rcases h3 with h3 | h3 <;> ex <;> simp_all [isProtoInit, atBracket, Is, head_cons]

theorem Means.propShortInit {Γ f t t' g e i o} (h1 : t.item.token = .ident)
    (h2 : C.text t ≠ t!"async") (h3 : Is t' .assign) (h4 : Ok C Γ (.assign g e) i o) :
    Means C Γ (.prop f (.property (.mk (.expr (.ident (C.text t))) (.expr e) .init false false
    true)) f) (t :: t' :: i) o := by fw <;> simp_all [isProtoInit, atBracket, Is, head_cons]

theorem Means.propSpread {Γ f t g e i o} (h1 : Is t .spread) (h2 : Ok C Γ (.assign g e) i o) :
    Means C Γ (.prop f (.spread (.spread e)) (g.and f)) (t :: i) o := by fw <;> simp_all [isProtoInit, atBracket, Is, head_cons]

theorem Means.propsEnd {Γ f o} (h1 : head o = .punct .closeBrace) :
    Means C Γ (.props f [] f) o o := by pre; halt

/-- The first of some properties may be read, and after it the others. -/
theorem protos_cons {b : Bool} {p : ObjectProperty} {l : List ObjectProperty}
    (h : b.toNat + ((p :: l).filter isProtoInit).length ≤ 1 ∨ C.tolerant = true) :
    (b = true → isProtoInit p = true → C.tolerant = true) ∧
      ((b || isProtoInit p).toNat + (l.filter isProtoInit).length ≤ 1 ∨ C.tolerant = true) := by
  rcases h with h | h
  · have hl : ((p :: l).filter isProtoInit).length =
        (isProtoInit p).toNat + (l.filter isProtoInit).length := by
      cases hp : isProtoInit p <;> simp [hp]; omega
    rw [hl] at h
    generalize isProtoInit p = c at h ⊢
    cases b <;> cases c <;> simp only [Bool.toNat_true, Bool.toNat_false] at h
    · exact ⟨nofun, .inl (by simpa using h)⟩
    · exact ⟨nofun, .inl (by simp; omega)⟩
    · exact ⟨nofun, .inl (by simp; omega)⟩
    · omega
  · exact ⟨fun _ _ => h, .inr h⟩

theorem Means.propsMore {Γ f g h p l t i j o} (h1 : Ok C Γ (.prop f p g) i (t :: j))
    (h2 : Is t .comma) (h3 : Ok C Γ (.props g l h) j o) :
    Means C Γ (.props f (p :: l) h) i o := by
  have hm := fun acc hb => h3.means acc hb
  pre
  rename_i hc
  obtain ⟨ha, hb⟩ := protos_cons hc
  more
  refine Exec.result (hm _ hb) ?_ rfl rfl
  simp [Bool.or_assoc]

theorem Means.propsNext {Γ f g h p l i j o} (h1 : Ok C Γ (.prop f p g) i j)
    (h2 : C.tolerant = true) (h3 : head j ≠ .punct .comma) (h4 : head j ≠ .punct .closeBrace)
    (h5 : Ok C Γ (.props g l h) j o) :
    Means C Γ (.props f (p :: l) h) i o := by
  have hc : ∀ f, Exec C Γ f j expectCommaSep () f j := fun f => commaSep_next h2 h3
  have hm := fun acc hb => h5.means acc hb
  pre
  rename_i hc
  obtain ⟨ha, hb⟩ := protos_cons hc
  more
  refine Exec.result (hm _ hb) ?_ rfl rfl
  simp [Bool.or_assoc]

theorem Means.propsLast {Γ f g p i o} (h1 : Ok C Γ (.prop f p g) i o)
    (h2 : head o = .punct .closeBrace) :
    Means C Γ (.props f [p] g) i o := by
  pre
  rename_i hc
  obtain ⟨ha, hb⟩ := protos_cons hc
  more
  halt

theorem Means.elemsEnd {Γ o} (h1 : head o = .punct .closeBracket) :
    Means C Γ (.elems (true, true) []) o o := by pre; halt

theorem Means.elemsHole {Γ f l t i o} (h1 : Is t .comma) (h2 : Ok C Γ (.elems f l) i o) :
    Means C Γ (.elems f (none :: l)) (t :: i) o := by pre; more

theorem Means.elemsMore {Γ f g e l t i j o} (h1 : Ok C Γ (.assign f e) i (t :: j))
    (h2 : Is t .comma) (h3 : Ok C Γ (.elems g l) j o) :
    Means C Γ (.elems (f.and g) (some e :: l)) i o := by pre; more

theorem Means.elemsLast {Γ f e i o} (h1 : Ok C Γ (.assign f e) i o)
    (h2 : head o = .punct .closeBracket) :
    Means C Γ (.elems f [some e]) i o := by
  pre
  more
  halt

theorem Means.elemsSpread {Γ f g e l t t' i j o} (h1 : Is t .spread)
    (h2 : Ok C Γ (.assign f e) i (t' :: j)) (h3 : Is t' .comma) (h4 : Ok C Γ (.elems g l) j o) :
    Means C Γ (.elems (false, false) (some (.spread e) :: l)) (t :: i) o := by pre; more

theorem Means.elemsSpreadLast {Γ f e t i o} (h1 : Is t .spread) (h2 : Ok C Γ (.assign f e) i o)
    (h3 : head o = .punct .closeBracket) :
    Means C Γ (.elems f [some (.spread e)]) (t :: i) o := by
  pre
  more
  halt

theorem Means.primIdent {Γ t o} (h1 : t.item.token = .ident) (h2 : C.noAsyncFn (t :: o)) :
    Means C Γ (.primary (true, true) (.ident (C.text t))) (t :: o) o := by
  have h2 : C.text t ≠ t!"async" ∨ head o ≠ .keyword .function := h2
  fw

theorem Means.primLet {Γ t o} (h1 : Kw t .let) (h2 : Γ.strict = false) :
    Means C Γ (.primary (true, true) (.ident (C.text t))) (t :: o) o := by fw

theorem Means.primReserved {Γ t k o} (h1 : Kw t k) (h2 : Γ.strict = false)
    (h3 : C.ext.isStrictReserved (.keyword k) = true) :
    Means C Γ (.primary (true, true) (.ident (C.text t))) (t :: o) o := by
  pre
  by_cases hy : k = .yield
  · subst hy
    ex
    apply Exec.getAny
    intro a
    cases a <;> ex
  · by_cases hl : k = .let
    · subst hl
      ex
    · ex

theorem Means.primImport {Γ t o} (h1 : Kw t .import) (h2 : C.hard Γ .import)
    (h3 : head o = .punct .openParen) :
    Means C Γ (.primary (false, false) (.ident (C.text t))) (t :: o) o := by
  pre
  cases hs : Γ.strict
  · have := h2 hs
    ex
  · ex

theorem Means.primNumber {Γ t o} (h1 : t.item.token = .numeric) :
    Means C Γ (.primary (false, false) (.literal (.number (C.text t)))) (t :: o) o := by fw

theorem Means.primString {Γ t o} (h1 : t.item.token = .string) :
    Means C Γ (.primary (false, false) (.literal (.string (C.text t)))) (t :: o) o := by fw

theorem Means.primBool {Γ b t o} (h1 : t.item.token = .boolean b) :
    Means C Γ (.primary (false, false) (.literal (.boolean b))) (t :: o) o := by fw

theorem Means.primRegex {Γ t pat flags o} (h1 : t.item.token = .regex)
    (h2 : C.text t = '/' :: (pat ++ '/' :: flags)) (h3 : '/' ∉ flags) :
    Means C Γ (.primary (false, false) (.literal (.regex ⟨pat, flags⟩))) (t :: o) o := by
  have h4 : splitLastSlash (C.text t) = some ('/' :: pat, flags) := by
    rw [h2]; exact splitLastSlash_append (a := '/' :: pat) h3
  have h5 : sliceB ('/' :: pat) 1 (blen ('/' :: pat)) = some pat :=
    sliceB_iff.2 ⟨['/'], [], by simp, rfl, by rw [← blen_append]; rfl⟩
  fw

theorem Means.primTemplate {Γ es qs i o} (h1 : Ok C Γ (.tpl es qs) i o) :
    Means C Γ (.primary (true, true) (.template es qs)) i o := by
  pre
  rcases h1.start with h | h <;> ex

theorem Means.primThis {Γ t o} (h1 : Kw t .this) (h2 : C.hard Γ .this) :
    Means C Γ (.primary (false, false) .this) (t :: o) o := by
  pre
  cases hs : Γ.strict
  · have := h2 hs
    ex
  · ex

theorem Means.primFunction {Γ e i o} (h1 : head i = .keyword .function → C.hard Γ .function)
    (h2 : Ok C Γ (.fnExpr e) i o) :
    Means C Γ (.primary (false, false) e) i o := by
  obtain ⟨h | ⟨t, t', j, rfl, h3, h4, h5, h6⟩, -⟩ := h2.start
  · have h1 := h1 h
    pre
    cases hs : Γ.strict
    · have := h1 hs
      ex
    · ex
  · fw

theorem Means.primClass {Γ c i o} (h1 : C.hard Γ .class) (h2 : Ok C Γ (.cls true c) i o) :
    Means C Γ (.primary (false, false) (.class c)) i o := by
  pre
  cases hs : Γ.strict
  · have := h1 hs
    ex
  · ex

theorem Means.primGroup {Γ f e t t' i o} (h1 : Is t .openParen)
    (h2 : Ok C Γ (.assign f e) i (t' :: o)) (h3 : Is t' .closeParen)
    (h4 : head o ≠ .punct .fatArrow) :
    Means C Γ (.primary f e) (t :: i) o := by fw

theorem Means.primSequence {Γ f g e l t t' i j o} (h1 : Is t .openParen)
    (h2 : Ok C Γ (.assign f e) i j) (h3 : Ok C Γ (.seqTail g l) j (t' :: o)) (h4 : l ≠ [])
    (h5 : Is t' .closeParen) (h6 : head o ≠ .punct .fatArrow) :
    Means C Γ (.primary (f.and g) (.sequence (e :: l))) (t :: i) o := by
  have := h3.core.seqComma h4
  fw

theorem Means.primArray {Γ f l t t' i o} (h1 : Is t .openBracket)
    (h2 : Ok C Γ (.elems f l) i (t' :: o)) (h3 : Is t' .closeBracket) :
    Means C Γ (.primary f (.array l)) (t :: i) o := by fw

theorem Means.primObject {Γ f l t t' i o} (h1 : Is t .openBrace)
    (h2 : Ok C Γ (.props (true, true) l f) i (t' :: o)) (h3 : Is t' .closeBrace)
    (h4 : (l.filter isProtoInit).length ≤ 1 ∨ C.tolerant = true) :
    Means C Γ (.primary f (.object l)) (t :: i) o := by
  have h5 := h2.means (false, []) (by simpa using h4)
  fw

end Ressa.Gr
