import Verif.Props.Safety

/-!
# The end of file is the last item
-/

namespace Ressa

theorem Next.drained {span ts s r} (h : Next span ts s r) :
    (s.foundEof = true → ts = []) →
    r.Sat (fun _ s' => s'.foundEof = true → s'.rest = [])
      (fun _ s' => s'.foundEof = true → s'.rest = []) True := by
  induction h with
  | eof => exact fun _ _ => rfl
  | after => exact fun _ _ => rfl
  | missing => exact fun _ _ => rfl
  | bad => exact fun _ => trivial
  | badComment => exact fun h hf => nomatch h hf
  | comment _ _ _ _ ih => exact fun h => ih fun hf => nomatch h hf
  | token => exact fun h hf => nomatch h hf

/-- Once the end of file is consumed there are no items left. -/
def drainedSys : Sys where
  good _ := True
  inv s := s.foundEof = true → s.rest = []
  ord _ _ := True
  errOk _ _ := True
  panicOk := True

theorem drainedSys_ok : SysOk drainedSys where
  refl _ := trivial
  trans _ _ := trivial
  ctxInv _ h := h
  ctxOrd _ := trivial
  next {s} h := by
    have := (nextItem_spec s).drained h
    revert this
    cases nextItem s with
    | ok a s' => exact fun h => ⟨h, trivial, trivial⟩
    | err a s' => exact fun h => ⟨h, trivial, trivial⟩
    | panic => exact fun _ => trivial
    | diverge => exact fun h => h
  look _ := trivial
  slice _ _ _ := ⟨trivial, fun _ _ => trivial⟩
  pos _ _ _ := trivial
  errPos _ _ _ _ := trivial
  peek _ _ _ := trivial
  reinterpret _ := trivial
  label _ _ := trivial
  fail _ := trivial
  template _ _ _ _ := ⟨fun _ => trivial, fun _ _ => trivial⟩
  regex _ _ _ := by split <;> intros <;> trivial

theorem reachable_drained {L : Lexer} {b : Builder} {s : St} (h : Reachable L b s) :
    s.foundEof = true → s.rest = [] :=
  (Sys.reachable drainedSys_ok h (fun h => nomatch h)).2.1

end Ressa
