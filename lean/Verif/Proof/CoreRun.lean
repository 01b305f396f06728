import Verif.Proof.CoreNames
import Verif.Proof.CoreClasses
import Verif.Proof.CorePrimary
import Verif.Proof.CoreOperators
import Verif.Proof.CoreStmts
import Verif.Proof.CoreModules

/-!
# Every phrase of the grammar is read

The induction over `Core`: one case for each rule, proved in the files imported above.
-/

namespace Ressa.Gr

variable {C : Cfg}

theorem Core.means {Γ nt i o} (h : Core C Γ nt i o) : Means C Γ nt i o := by
  induction h with
  | ident h1 h2 => exact Means.ident h1 h2
  | keyString h1 => exact Means.keyString h1
  | keyNumber h1 => exact Means.keyNumber h1
  | keyName h1 => exact Means.keyName h1
  | keyComputed h1 h2 h3 i2 => exact Means.keyComputed h1 ⟨h2, i2⟩ h3
  | semiToken h1 => exact Means.semiToken h1
  | semiLine h1 h2 => exact Means.semiLine h1 h2
  | semiEnd h1 => exact Means.semiEnd h1
  | patIdent h1 i1 => exact Means.patIdent ⟨h1, i1⟩
  | patKeyword h1 h2 h3 h4 => exact Means.patKeyword h1 h2 h3 h4
  | patArray h1 h2 h3 i2 => exact Means.patArray h1 ⟨h2, i2⟩ h3
  | patObject h1 h2 h3 i2 => exact Means.patObject h1 ⟨h2, i2⟩ h3
  | patNoDefault h1 h2 i1 => exact Means.patNoDefault ⟨h1, i1⟩ h2
  | patDefault h1 h2 h3 i1 i3 => exact Means.patDefault ⟨h1, i1⟩ h2 ⟨h3, i3⟩
  | patElemsEnd h1 => exact Means.patElemsEnd h1
  | patElemsHole h1 h2 i2 => exact Means.patElemsHole h1 ⟨h2, i2⟩
  | patElemsMore h1 h2 h3 i1 i3 => exact Means.patElemsMore ⟨h1, i1⟩ h2 ⟨h3, i3⟩
  | patElemsLast h1 h2 i1 => exact Means.patElemsLast ⟨h1, i1⟩ h2
  | patElemsRest h1 h2 h3 i2 => exact Means.patElemsRest h1 ⟨h2, i2⟩ h3
  | patPropRest h1 h2 i2 => exact Means.patPropRest h1 ⟨h2, i2⟩
  | patPropInit h1 h2 h3 i1 i3 => exact Means.patPropInit ⟨h1, i1⟩ h2 ⟨h3, i3⟩
  | patPropName h1 h2 h3 i1 i3 => exact Means.patPropName ⟨h1, i1⟩ h2 ⟨h3, i3⟩
  | patPropShort h1 h2 i1 => exact Means.patPropShort ⟨h1, i1⟩ h2
  | patPropKey h1 h2 h3 h4 i2 i4 => exact Means.patPropKey h1 ⟨h2, i2⟩ h3 ⟨h4, i4⟩
  | patPropsEnd h1 => exact Means.patPropsEnd h1
  | patPropsMore h1 h2 h3 i1 i3 => exact Means.patPropsMore ⟨h1, i1⟩ h2 ⟨h3, i3⟩
  | patPropsLast h1 h2 i1 => exact Means.patPropsLast ⟨h1, i1⟩ h2
  | prologueEnd h1 => exact Means.prologueEnd h1
  | prologueDir h1 h2 h3 h4 h5 i2 i4 i5 => exact Means.prologueDir h1 ⟨h2, i2⟩ h3 ⟨h4, i4⟩ ⟨h5, i5⟩
  | prologueExpr h1 h2 h3 h4 h5 h6 i2 i5 i6 => exact Means.prologueExpr h1 ⟨h2, i2⟩ h3 h4 ⟨h5, i5⟩ ⟨h6, i6⟩
  | itemsEnd => exact Means.itemsEnd
  | itemsMore h1 h2 i1 i2 => exact Means.itemsMore ⟨h1, i1⟩ ⟨h2, i2⟩
  | body h1 h2 h3 h4 i2 i3 => exact Means.body h1 ⟨h2, i2⟩ ⟨h3, i3⟩ h4
  | paramRest h1 h2 h3 i2 => exact Means.paramRest h1 ⟨h2, i2⟩ h3
  | param h1 i1 => exact Means.param ⟨h1, i1⟩
  | paramLast h1 h2 i1 => exact Means.paramLast ⟨h1, i1⟩ h2
  | paramTrail h1 h2 h3 i1 => exact Means.paramTrail ⟨h1, i1⟩ h2 h3
  | paramMore h1 h2 h3 i1 i3 => exact Means.paramMore ⟨h1, i1⟩ h2 ⟨h3, i3⟩
  | paramsNone h1 h2 => exact Means.paramsNone h1 h2
  | params h1 h2 h3 i2 => exact Means.params h1 ⟨h2, i2⟩ h3
  | starNo h1 => exact Means.starNo h1
  | starYes h1 => exact Means.starYes h1
  | declNameNone h1 => exact Means.declNameNone h1
  | declName h1 h2 i1 => exact Means.declName ⟨h1, i1⟩ h2
  | fnPlain h1 h2 => exact Means.fnPlain h1 h2
  | fnAsync h1 h2 h3 h4 => exact Means.fnAsync h1 h2 h3 h4
  | fnDecl h1 h2 h3 h4 h5 h6 i1 i2 i4 i5 i6 => exact Means.fnDecl ⟨h1, i1⟩ ⟨h2, i2⟩ h3 ⟨h4, i4⟩ ⟨h5, i5⟩ ⟨h6, i6⟩
  | exprNameNone h1 => exact Means.exprNameNone h1
  | exprName h1 h2 i1 => exact Means.exprName ⟨h1, i1⟩ h2
  | exprYield h1 h2 h3 h4 => exact Means.exprYield h1 h2 h3 h4
  | fnExpr h1 h2 h3 h4 h5 h6 i1 i2 i3 i4 i5 => exact Means.fnExpr ⟨h1, i1⟩ ⟨h2, i2⟩ ⟨h3, i3⟩ ⟨h4, i4⟩ ⟨h5, i5⟩ h6
  | method h1 h2 h3 i1 i2 => exact Means.method ⟨h1, i1⟩ ⟨h2, i2⟩ h3
  | methodGen h1 h2 h3 i1 i2 => exact Means.methodGen ⟨h1, i1⟩ ⟨h2, i2⟩ h3
  | methodAsync h1 h2 h3 i1 i2 => exact Means.methodAsync ⟨h1, i1⟩ ⟨h2, i2⟩ h3
  | getter h1 h2 h3 h4 i1 i3 => exact Means.getter ⟨h1, i1⟩ h2 ⟨h3, i3⟩ h4
  | setter h1 h2 h3 h4 i1 i3 => exact Means.setter ⟨h1, i1⟩ h2 ⟨h3, i3⟩ h4
  | elMethod h1 h2 h3 h4 h5 h6 i1 i6 => exact Means.elMethod ⟨h1, i1⟩ h2 h3 h4 h5 ⟨h6, i6⟩
  | elGet h1 h2 h3 h4 h5 h6 i5 i6 => exact Means.elGet h1 h2 h3 h4 ⟨h5, i5⟩ ⟨h6, i6⟩
  | elSet h1 h2 h3 h4 h5 h6 i5 i6 => exact Means.elSet h1 h2 h3 h4 ⟨h5, i5⟩ ⟨h6, i6⟩
  | elGen h1 h2 h3 h4 i3 i4 => exact Means.elGen h1 h2 ⟨h3, i3⟩ ⟨h4, i4⟩
  | classEl h1 h2 h3 i2 => exact Means.classEl h1 ⟨h2, i2⟩ h3
  | classElAsync h1 h2 h3 h4 h5 h6 h7 i3 i6 => exact Means.classElAsync h1 h2 ⟨h3, i3⟩ h4 h5 ⟨h6, i6⟩ h7
  | classElStatic h1 h2 h3 h4 h5 i4 => exact Means.classElStatic h1 h2 h3 ⟨h4, i4⟩ h5
  | classElsEnd h1 => exact Means.classElsEnd h1
  | classElsSemi h1 h2 i2 => exact Means.classElsSemi h1 ⟨h2, i2⟩
  | classElsMore h1 h2 i1 i2 => exact Means.classElsMore ⟨h1, i1⟩ ⟨h2, i2⟩
  | classBody h1 h2 h3 i2 => exact Means.classBody h1 ⟨h2, i2⟩ h3
  | heritageNone h1 => exact Means.heritageNone h1
  | heritage h1 h2 i2 => exact Means.heritage h1 ⟨h2, i2⟩
  | classNameNone h1 => exact Means.classNameNone h1
  | className h1 i1 => exact Means.className ⟨h1, i1⟩
  | cls h1 h2 h3 h4 h5 i3 i4 i5 => exact Means.cls h1 h2 ⟨h3, i3⟩ ⟨h4, i4⟩ ⟨h5, i5⟩
  | clsDropped h1 h2 h3 h4 i2 i3 i4 => exact Means.clsDropped h1 ⟨h2, i2⟩ ⟨h3, i3⟩ ⟨h4, i4⟩
  | tplLast h1 h2 h3 i1 => exact Means.tplLast ⟨h1, i1⟩ h2 h3
  | tplMore h1 h2 h3 h4 i1 i4 => exact Means.tplMore ⟨h1, i1⟩ h2 h3 ⟨h4, i4⟩
  | tplPlain h1 h2 => exact Means.tplPlain h1 h2
  | tpl h1 h2 h3 i3 => exact Means.tpl h1 h2 ⟨h3, i3⟩
  | argSpread h1 h2 i2 => exact Means.argSpread h1 ⟨h2, i2⟩
  | arg h1 i1 => exact Means.arg ⟨h1, i1⟩
  | argLast h1 h2 i1 => exact Means.argLast ⟨h1, i1⟩ h2
  | argTrail h1 h2 h3 i1 => exact Means.argTrail ⟨h1, i1⟩ h2 h3
  | argMore h1 h2 h3 i1 i3 => exact Means.argMore ⟨h1, i1⟩ h2 ⟨h3, i3⟩
  | argNext h1 h2 h3 h4 i1 i4 => exact Means.argNext ⟨h1, i1⟩ h2 h3 ⟨h4, i4⟩
  | argsNone h1 h2 => exact Means.argsNone h1 h2
  | args h1 h2 h3 i2 => exact Means.args h1 ⟨h2, i2⟩ h3
  | propIdent h1 h2 => exact Means.propIdent h1 h2
  | propKey h1 h2 i2 => exact Means.propKey h1 ⟨h2, i2⟩
  | propInit h1 h2 h3 i1 i3 => exact Means.propInit ⟨h1, i1⟩ h2 ⟨h3, i3⟩
  | propAssign h1 h2 h3 h4 i1 i3 => exact Means.propAssign ⟨h1, i1⟩ h2 ⟨h3, i3⟩ h4
  | propMethod h1 h2 i1 i2 => exact Means.propMethod ⟨h1, i1⟩ ⟨h2, i2⟩
  | propAsync h1 h2 h3 h4 i3 i4 => exact Means.propAsync h1 h2 ⟨h3, i3⟩ ⟨h4, i4⟩
  | propAsyncShort h1 h2 h3 h4 i3 => exact Means.propAsyncShort h1 h2 ⟨h3, i3⟩ h4
  | propAsyncInit h1 h2 h3 h4 h5 i3 i5 => exact Means.propAsyncInit h1 h2 ⟨h3, i3⟩ h4 ⟨h5, i5⟩
  | propGet h1 h2 h3 h4 i3 i4 => exact Means.propGet h1 h2 ⟨h3, i3⟩ ⟨h4, i4⟩
  | propSet h1 h2 h3 h4 i3 i4 => exact Means.propSet h1 h2 ⟨h3, i3⟩ ⟨h4, i4⟩
  | propGen h1 h2 h3 h4 h5 i4 i5 => exact Means.propGen h1 h2 h3 ⟨h4, i4⟩ ⟨h5, i5⟩
  | propShort h1 h2 h3 => exact Means.propShort h1 h2 h3
  | propShortInit h1 h2 h3 h4 i4 => exact Means.propShortInit h1 h2 h3 ⟨h4, i4⟩
  | propSpread h1 h2 i2 => exact Means.propSpread h1 ⟨h2, i2⟩
  | propsEnd h1 => exact Means.propsEnd h1
  | propsMore h1 h2 h3 i1 i3 => exact Means.propsMore ⟨h1, i1⟩ h2 ⟨h3, i3⟩
  | propsNext h1 h2 h3 h4 h5 i1 i5 => exact Means.propsNext ⟨h1, i1⟩ h2 h3 h4 ⟨h5, i5⟩
  | propsLast h1 h2 i1 => exact Means.propsLast ⟨h1, i1⟩ h2
  | elemsEnd h1 => exact Means.elemsEnd h1
  | elemsHole h1 h2 i2 => exact Means.elemsHole h1 ⟨h2, i2⟩
  | elemsMore h1 h2 h3 i1 i3 => exact Means.elemsMore ⟨h1, i1⟩ h2 ⟨h3, i3⟩
  | elemsLast h1 h2 i1 => exact Means.elemsLast ⟨h1, i1⟩ h2
  | elemsSpread h1 h2 h3 h4 i2 i4 => exact Means.elemsSpread h1 ⟨h2, i2⟩ h3 ⟨h4, i4⟩
  | elemsSpreadLast h1 h2 h3 i2 => exact Means.elemsSpreadLast h1 ⟨h2, i2⟩ h3
  | primIdent h1 h2 => exact Means.primIdent h1 h2
  | primLet h1 h2 => exact Means.primLet h1 h2
  | primReserved h1 h2 h3 => exact Means.primReserved h1 h2 h3
  | primImport h1 h2 h3 => exact Means.primImport h1 h2 h3
  | primNumber h1 => exact Means.primNumber h1
  | primString h1 => exact Means.primString h1
  | primBool h1 => exact Means.primBool h1
  | primRegex h1 h2 h3 => exact Means.primRegex h1 h2 h3
  | primTemplate h1 i1 => exact Means.primTemplate ⟨h1, i1⟩
  | primThis h1 h2 => exact Means.primThis h1 h2
  | primFunction h1 h2 i2 => exact Means.primFunction h1 ⟨h2, i2⟩
  | primClass h1 h2 i2 => exact Means.primClass h1 ⟨h2, i2⟩
  | primGroup h1 h2 h3 h4 i2 => exact Means.primGroup h1 ⟨h2, i2⟩ h3 h4
  | primSequence h1 h2 h3 h4 h5 h6 i2 i3 => exact Means.primSequence h1 ⟨h2, i2⟩ ⟨h3, i3⟩ h4 h5 h6
  | primArray h1 h2 h3 i2 => exact Means.primArray h1 ⟨h2, i2⟩ h3
  | primObject h1 h2 h3 h4 i2 => exact Means.primObject h1 ⟨h2, i2⟩ h3 h4
  | newTarget h1 h2 h3 h4 => exact Means.newTarget h1 h2 h3 h4
  | newBare h1 h2 h3 h4 i3 => exact Means.newBare h1 h2 ⟨h3, i3⟩ h4
  | newArgs h1 h2 h3 h4 i3 i4 => exact Means.newArgs h1 h2 ⟨h3, i3⟩ ⟨h4, i4⟩
  | opNew h1 i1 => exact Means.opNew ⟨h1, i1⟩
  | opPrimary h1 h2 i1 => exact Means.opPrimary ⟨h1, i1⟩ h2
  | memStop h1 => exact Means.memStop h1
  | memDot h1 h2 i2 => exact Means.memDot h1 ⟨h2, i2⟩
  | memIndex h1 h2 h3 h4 i2 i4 => exact Means.memIndex h1 ⟨h2, i2⟩ h3 ⟨h4, i4⟩
  | memTemplate h1 h2 i1 i2 => exact Means.memTemplate ⟨h1, i1⟩ ⟨h2, i2⟩
  | memSuper h1 h2 h3 h4 i4 => exact Means.memSuper h1 h2 h3 ⟨h4, i4⟩
  | member h1 h2 h3 i2 i3 => exact Means.member h1 ⟨h2, i2⟩ ⟨h3, i3⟩
  | callStop h1 => exact Means.callStop h1
  | callDot h1 h2 i2 => exact Means.callDot h1 ⟨h2, i2⟩
  | callIndex h1 h2 h3 h4 i2 i4 => exact Means.callIndex h1 ⟨h2, i2⟩ h3 ⟨h4, i4⟩
  | callTemplate h1 h2 i1 i2 => exact Means.callTemplate ⟨h1, i1⟩ ⟨h2, i2⟩
  | callArgs h1 h2 h3 i1 i3 => exact Means.callArgs ⟨h1, i1⟩ h2 ⟨h3, i3⟩
  | callSuper h1 h2 h3 h4 h5 i5 => exact Means.callSuper h1 h2 h3 h4 ⟨h5, i5⟩
  | call h1 h2 h3 h4 i3 i4 => exact Means.call h1 h2 ⟨h3, i3⟩ ⟨h4, i4⟩
  | callNone h1 h2 h3 i2 => exact Means.callNone h1 ⟨h2, i2⟩ h3
  | updNone h1 h2 h3 h4 i1 => exact Means.updNone ⟨h1, i1⟩ h2 h3 h4
  | updPrefix h1 h2 h3 h4 i2 => exact Means.updPrefix h1 ⟨h2, i2⟩ h3 h4
  | updPostfix h1 h2 h3 h4 h5 h6 h7 i1 => exact Means.updPostfix ⟨h1, i1⟩ h2 h3 h4 h5 h6 h7
  | unaryUpdate h1 h2 h3 i3 => exact Means.unaryUpdate h1 h2 ⟨h3, i3⟩
  | unaryOp h1 h2 h3 i2 => exact Means.unaryOp h1 ⟨h2, i2⟩ h3
  | unaryAwait h1 h2 h3 i3 => exact Means.unaryAwait h1 h2 ⟨h3, i3⟩
  | expoOne h1 h2 i1 => exact Means.expoOne ⟨h1, i1⟩ h2
  | expo h1 h2 h3 i1 i3 => exact Means.expo ⟨h1, i1⟩ h2 ⟨h3, i3⟩
  | opStop h1 => exact Means.opStop h1
  | opMore h1 h2 h3 h4 h5 i4 i5 => exact Means.opMore h1 h2 h3 ⟨h4, i4⟩ ⟨h5, i5⟩
  | binOne h1 h2 i1 => exact Means.binOne ⟨h1, i1⟩ h2
  | bin h1 h2 h3 h4 i1 i2 => exact Means.bin ⟨h1, i1⟩ ⟨h2, i2⟩ h3 h4
  | condOne h1 h2 i1 => exact Means.condOne ⟨h1, i1⟩ h2
  | cond h1 h2 h3 h4 h5 i1 i3 i5 => exact Means.cond ⟨h1, i1⟩ h2 ⟨h3, i3⟩ h4 ⟨h5, i5⟩
  | arrowNone h1 h2 h3 => exact Means.arrowNone h1 h2 h3
  | arrowRest h1 h2 h3 h4 h5 i3 => exact Means.arrowRest h1 h2 ⟨h3, i3⟩ h4 h5
  | arrowOne h1 h2 h3 h4 h5 h6 i2 => exact Means.arrowOne h1 ⟨h2, i2⟩ h3 h4 h5 h6
  | arrowMany h1 h2 h3 h4 h5 h6 h7 i2 i3 => exact Means.arrowMany h1 ⟨h2, i2⟩ ⟨h3, i3⟩ h4 h5 h6 h7
  | groupTrail h1 h2 => exact Means.groupTrail h1 h2
  | groupRest h1 h2 h3 h4 i3 => exact Means.groupRest h1 h2 ⟨h3, i3⟩ h4
  | groupMore h1 h2 h3 h4 i2 i4 => exact Means.groupMore h1 ⟨h2, i2⟩ h3 ⟨h4, i4⟩
  | arrowGroup h1 h2 h3 h4 h5 i2 i4 => exact Means.arrowGroup h1 ⟨h2, i2⟩ h3 ⟨h4, i4⟩ h5
  | arrowBlock h1 h2 i2 => exact Means.arrowBlock h1 ⟨h2, i2⟩
  | arrowExpr h1 h2 h3 i3 => exact Means.arrowExpr h1 h2 ⟨h3, i3⟩
  | singleCond h1 h2 h3 h4 h5 i3 => exact Means.singleCond h1 h2 ⟨h3, i3⟩ h4 h5
  | singleArrow h1 h2 h3 i3 => exact Means.singleArrow h1 h2 ⟨h3, i3⟩
  | singleArrows h1 h2 h3 h4 i2 i4 => exact Means.singleArrows h1 ⟨h2, i2⟩ h3 ⟨h4, i4⟩
  | asyncArrow h1 h2 h3 h4 h5 h6 i6 => exact Means.asyncArrow h1 h2 h3 h4 h5 ⟨h6, i6⟩
  | asyncArrows h1 h2 h3 h4 h5 h6 h7 i4 i7 => exact Means.asyncArrows h1 h2 h3 ⟨h4, i4⟩ h5 h6 ⟨h7, i7⟩
  | yieldNone h1 h2 h3 => exact Means.yieldNone h1 h2 h3
  | yield h1 h2 h3 h4 h5 i5 => exact Means.yield h1 h2 h3 h4 ⟨h5, i5⟩
  | yieldAll h1 h2 h3 h4 h5 i5 => exact Means.yieldAll h1 h2 h3 h4 ⟨h5, i5⟩
  | assign h1 i1 => exact Means.assign ⟨h1, i1⟩
  | assignEq h1 h2 h3 h4 h5 h6 i2 i6 => exact Means.assignEq h1 ⟨h2, i2⟩ h3 h4 h5 ⟨h6, i6⟩
  | assignOp h1 h2 h3 h4 h5 h6 h7 i2 i7 => exact Means.assignOp h1 ⟨h2, i2⟩ h3 h4 h5 h6 ⟨h7, i7⟩
  | assignYield h1 h2 h3 h4 h5 i5 => exact Means.assignYield h1 h2 h3 h4 ⟨h5, i5⟩
  | assignYieldAll h1 h2 h3 h4 h5 i5 => exact Means.assignYieldAll h1 h2 h3 h4 ⟨h5, i5⟩
  | seqStop h1 => exact Means.seqStop h1
  | seqMore h1 h2 h3 i2 i3 => exact Means.seqMore h1 ⟨h2, i2⟩ ⟨h3, i3⟩
  | expression h1 h2 i1 => exact Means.expression ⟨h1, i1⟩ h2
  | sequence h1 h2 h3 i1 i2 => exact Means.sequence ⟨h1, i1⟩ ⟨h2, i2⟩ h3
  | varInit h1 h2 h3 h4 i1 i4 => exact Means.varInit ⟨h1, i1⟩ h2 h3 ⟨h4, i4⟩
  | varNone h1 h2 h3 h4 i1 => exact Means.varNone ⟨h1, i1⟩ h2 h3 h4
  | varLast h1 h2 i1 => exact Means.varLast ⟨h1, i1⟩ h2
  | varMore h1 h2 h3 i1 i3 => exact Means.varMore ⟨h1, i1⟩ h2 ⟨h3, i3⟩
  | lexInit h0 h1 h2 h3 h4 h5 i1 i5 => exact Means.lexInit h0 ⟨h1, i1⟩ h2 h3 h4 ⟨h5, i5⟩
  | lexNone h0 h1 h2 h3 h4 i1 => exact Means.lexNone h0 ⟨h1, i1⟩ h2 h3 h4
  | lexConstIn h0 h1 h2 h3 i1 => exact Means.lexConstIn h0 ⟨h1, i1⟩ h2 h3
  | lexLast h1 h2 i1 => exact Means.lexLast ⟨h1, i1⟩ h2
  | lexMore h1 h2 h3 i1 i3 => exact Means.lexMore ⟨h1, i1⟩ h2 ⟨h3, i3⟩
  | lexLet h1 h2 h3 i2 i3 => exact Means.lexLet h1 ⟨h2, i2⟩ ⟨h3, i3⟩
  | lexConst h1 h2 h3 i2 i3 => exact Means.lexConst h1 ⟨h2, i2⟩ ⟨h3, i3⟩
  | block h1 h2 h3 i2 => exact Means.block h1 ⟨h2, i2⟩ h3
  | loopBody h1 h2 i2 => exact Means.loopBody h1 ⟨h2, i2⟩
  | loopBodyFor h1 h2 i2 => exact Means.loopBodyFor h1 ⟨h2, i2⟩
  | optNone h1 => exact Means.optNone h1
  | optSome h1 h2 i2 => exact Means.optSome h1 ⟨h2, i2⟩
  | forCont h1 h2 h3 h4 h5 i2 i4 i5 => exact Means.forCont h1 ⟨h2, i2⟩ h3 ⟨h4, i4⟩ ⟨h5, i5⟩
  | forIn h1 h2 h3 i2 i3 => exact Means.forIn h1 ⟨h2, i2⟩ ⟨h3, i3⟩
  | forOf h1 h2 h3 h4 i3 i4 => exact Means.forOf h1 h2 ⟨h3, i3⟩ ⟨h4, i4⟩
  | forOfAssign h1 h2 h3 h4 i3 i4 => exact Means.forOfAssign h1 h2 ⟨h3, i3⟩ ⟨h4, i4⟩
  | forSemi h1 i1 => exact Means.forSemi ⟨h1, i1⟩
  | forVarIn h1 h2 h3 i2 i3 => exact Means.forVarIn h1 ⟨h2, i2⟩ ⟨h3, i3⟩
  | forVarOf h0 h1 h2 h3 i2 i3 => exact Means.forVarOf h0 h1 ⟨h2, i2⟩ ⟨h3, i3⟩
  | forVar h1 h2 h3 h4 i2 i4 => exact Means.forVar h1 ⟨h2, i2⟩ h3 ⟨h4, i4⟩
  | forLexIn h1 h2 h3 h4 i2 i4 => exact Means.forLexIn h1 ⟨h2, i2⟩ h3 ⟨h4, i4⟩
  | forLexOf h0 h1 h2 h3 h4 i2 i4 => exact Means.forLexOf h0 h1 ⟨h2, i2⟩ h3 ⟨h4, i4⟩
  | forNameIn h1 h2 h3 i3 => exact Means.forNameIn h1 h2 ⟨h3, i3⟩
  | forLex h1 h2 h3 h4 i2 i4 => exact Means.forLex h1 ⟨h2, i2⟩ h3 ⟨h4, i4⟩
  | forExprIn h1 h2 h3 h4 h5 i2 i3 => exact Means.forExprIn h1 ⟨h2, i2⟩ ⟨h3, i3⟩ h4 h5
  | forExprOf h0 h1 h2 h3 h4 h5 i2 i3 => exact Means.forExprOf h0 h1 ⟨h2, i2⟩ ⟨h3, i3⟩ h4 h5
  | forExpr h1 h2 h3 h4 h5 h6 i2 i4 => exact Means.forExpr h1 ⟨h2, i2⟩ h3 ⟨h4, i4⟩ h5 h6
  | forExprSeq h1 h2 h3 h4 h5 h6 h7 h8 i2 i4 i6 => exact Means.forExprSeq h1 ⟨h2, i2⟩ h3 ⟨h4, i4⟩ h5 ⟨h6, i6⟩ h7 h8
  | catchNone h1 => exact Means.catchNone h1
  | catchParam h1 h2 h3 i2 => exact Means.catchParam h1 ⟨h2, i2⟩ h3
  | handlerNone h1 => exact Means.handlerNone h1
  | handler h1 h2 h3 i2 i3 => exact Means.handler h1 ⟨h2, i2⟩ ⟨h3, i3⟩
  | finalizerNone h1 => exact Means.finalizerNone h1
  | finalizer h1 h2 i2 => exact Means.finalizer h1 ⟨h2, i2⟩
  | caseDefault h1 h2 h3 h4 i3 => exact Means.caseDefault h1 h2 ⟨h3, i3⟩ h4
  | case h1 h2 h3 h4 h5 i2 i4 => exact Means.case h1 ⟨h2, i2⟩ h3 ⟨h4, i4⟩ h5
  | casesEnd h1 => exact Means.casesEnd h1
  | casesMore h1 h2 h3 i1 i3 => exact Means.casesMore ⟨h1, i1⟩ h2 ⟨h3, i3⟩
  | labelNone h1 h2 i2 => exact Means.labelNone h1 ⟨h2, i2⟩
  | label h1 h2 h3 i2 i3 => exact Means.label h1 ⟨h2, i2⟩ ⟨h3, i3⟩
  | labelClass h1 h2 h3 i3 => exact Means.labelClass h1 h2 ⟨h3, i3⟩
  | labelFunction h1 h2 i2 => exact Means.labelFunction h1 ⟨h2, i2⟩
  | labelStmt h1 h2 h3 i1 => exact Means.labelStmt ⟨h1, i1⟩ h2 h3
  | clause h1 h2 i2 => exact Means.clause h1 ⟨h2, i2⟩
  | stExpr h1 h2 h3 h4 h5 i3 i5 => exact Means.stExpr h1 h2 ⟨h3, i3⟩ h4 ⟨h5, i5⟩
  | stBlock h1 i1 => exact Means.stBlock ⟨h1, i1⟩
  | stEmpty h1 => exact Means.stEmpty h1
  | stFunction h1 i1 => exact Means.stFunction ⟨h1, i1⟩
  | stLabeled h1 h2 h3 h4 h5 h6 i3 i6 => exact Means.stLabeled h1 h2 ⟨h3, i3⟩ h4 h5 ⟨h6, i6⟩
  | stBreak h1 h2 i2 => exact Means.stBreak h1 ⟨h2, i2⟩
  | stContinue h1 h2 i2 => exact Means.stContinue h1 ⟨h2, i2⟩
  | stDebugger h1 h2 i2 => exact Means.stDebugger h1 ⟨h2, i2⟩
  | stDoWhile h1 h2 h3 h4 h5 h6 h7 i2 i5 => exact Means.stDoWhile h1 ⟨h2, i2⟩ h3 h4 ⟨h5, i5⟩ h6 h7
  | stDoWhileSemi h1 h2 h3 h4 h5 h6 h7 i2 i5 => exact Means.stDoWhileSemi h1 ⟨h2, i2⟩ h3 h4 ⟨h5, i5⟩ h6 h7
  | forStmt h1 h2 h3 i3 => exact Means.forStmt h1 h2 ⟨h3, i3⟩
  | forAwait h1 h2 h3 h4 i4 => exact Means.forAwait h1 h2 h3 ⟨h4, i4⟩
  | stFor h1 i1 => exact Means.stFor ⟨h1, i1⟩
  | stIf h1 h2 h3 h4 h5 h6 i3 i5 => exact Means.stIf h1 h2 ⟨h3, i3⟩ h4 ⟨h5, i5⟩ h6
  | stIfElse h1 h2 h3 h4 h5 h6 h7 i3 i5 i7 => exact Means.stIfElse h1 h2 ⟨h3, i3⟩ h4 ⟨h5, i5⟩ h6 ⟨h7, i7⟩
  | stIfOpen h1 h2 h3 h4 h5 i3 => exact Means.stIfOpen h1 h2 ⟨h3, i3⟩ h4 h5
  | stReturn h1 h2 h3 h4 i4 => exact Means.stReturn h1 h2 h3 ⟨h4, i4⟩
  | stReturnArg h1 h2 h3 h4 h5 i4 i5 => exact Means.stReturnArg h1 h2 h3 ⟨h4, i4⟩ ⟨h5, i5⟩
  | stSwitch h1 h2 h3 h4 h5 h6 h7 i3 i6 => exact Means.stSwitch h1 h2 ⟨h3, i3⟩ h4 h5 ⟨h6, i6⟩ h7
  | stThrow h1 h2 h3 i2 i3 => exact Means.stThrow h1 ⟨h2, i2⟩ ⟨h3, i3⟩
  | stTry h1 h2 h3 h4 i2 i3 i4 => exact Means.stTry h1 ⟨h2, i2⟩ ⟨h3, i3⟩ ⟨h4, i4⟩
  | stVar h1 h2 h3 i2 i3 => exact Means.stVar h1 ⟨h2, i2⟩ ⟨h3, i3⟩
  | stWhile h1 h2 h3 h4 h5 i3 i5 => exact Means.stWhile h1 h2 ⟨h3, i3⟩ h4 ⟨h5, i5⟩
  | stWhileOpen h1 h2 h3 h4 h5 i3 => exact Means.stWhileOpen h1 h2 ⟨h3, i3⟩ h4 h5
  | stWithOpen h1 h2 h3 h4 h5 i3 => exact Means.stWithOpen h1 h2 ⟨h3, i3⟩ h4 h5
  | stWith h1 h2 h3 h4 h5 h6 i4 i6 => exact Means.stWith h1 h2 h3 ⟨h4, i4⟩ h5 ⟨h6, i6⟩
  | importSpec h1 h2 i1 => exact Means.importSpec ⟨h1, i1⟩ h2
  | importName h1 h2 h3 => exact Means.importName h1 h2 h3
  | importAs h1 h2 h3 i1 i3 => exact Means.importAs ⟨h1, i1⟩ h2 ⟨h3, i3⟩
  | importNameAs h1 h2 h3 h4 i4 => exact Means.importNameAs h1 h2 h3 ⟨h4, i4⟩
  | importSeqEnd h1 => exact Means.importSeqEnd h1
  | importSeqMore h1 h2 h3 i1 i3 => exact Means.importSeqMore ⟨h1, i1⟩ h2 ⟨h3, i3⟩
  | importSeqLast h1 h2 i1 => exact Means.importSeqLast ⟨h1, i1⟩ h2
  | named h1 h2 h3 i2 => exact Means.named h1 ⟨h2, i2⟩ h3
  | nsImport h1 h2 => exact Means.nsImport h1 h2
  | importsNamed h1 i1 => exact Means.importsNamed ⟨h1, i1⟩
  | importsNs h1 i1 => exact Means.importsNs ⟨h1, i1⟩
  | importsDefault h1 h2 => exact Means.importsDefault h1 h2
  | importsDefaultNs h1 h2 h3 i3 => exact Means.importsDefaultNs h1 h2 ⟨h3, i3⟩
  | importsDefaultNamed h1 h2 h3 i3 => exact Means.importsDefaultNamed h1 h2 ⟨h3, i3⟩
  | importBare h1 h2 h3 i3 => exact Means.importBare h1 h2 ⟨h3, i3⟩
  | importFrom h1 h2 h3 h4 h5 i2 i5 => exact Means.importFrom h1 ⟨h2, i2⟩ h3 h4 ⟨h5, i5⟩
  | exportSpec h1 h2 => exact Means.exportSpec h1 h2
  | exportAs h1 h2 => exact Means.exportAs h1 h2
  | exportSeqEnd h1 => exact Means.exportSeqEnd h1
  | exportSeqMore h1 h2 h3 i1 i3 => exact Means.exportSeqMore ⟨h1, i1⟩ h2 ⟨h3, i3⟩
  | exportSeqLast h1 h2 i1 => exact Means.exportSeqLast ⟨h1, i1⟩ h2
  | exportDefaultFn h1 h2 h3 i3 => exact Means.exportDefaultFn h1 h2 ⟨h3, i3⟩
  | exportDefaultClass h1 h2 h3 i3 => exact Means.exportDefaultClass h1 h2 ⟨h3, i3⟩
  | exportDefaultObject h1 h2 h3 h4 h5 h6 h7 i5 => exact Means.exportDefaultObject h1 h2 h3 h4 ⟨h5, i5⟩ h6 h7
  | exportDefaultArray h1 h2 h3 h4 h5 h6 i5 => exact Means.exportDefaultArray h1 h2 h3 h4 ⟨h5, i5⟩ h6
  | exportDefaultExpr h1 h2 h3 h4 h5 h6 h7 h8 i8 => exact Means.exportDefaultExpr h1 h2 h3 h4 h5 h6 h7 ⟨h8, i8⟩
  | exportAll h1 h2 h3 h4 i4 => exact Means.exportAll h1 h2 h3 ⟨h4, i4⟩
  | exportLexical h1 h2 h3 i2 i3 => exact Means.exportLexical h1 ⟨h2, i2⟩ ⟨h3, i3⟩
  | exportVar h1 h2 h3 h4 i3 i4 => exact Means.exportVar h1 h2 ⟨h3, i3⟩ ⟨h4, i4⟩
  | exportClass h1 h2 i2 => exact Means.exportClass h1 ⟨h2, i2⟩
  | exportFn h1 h2 h3 i3 => exact Means.exportFn h1 h2 ⟨h3, i3⟩
  | exportAsync h1 h2 h3 i3 => exact Means.exportAsync h1 h2 ⟨h3, i3⟩
  | exportNamed h1 h2 h3 h4 h5 h6 h7 i4 i7 => exact Means.exportNamed h1 h2 h3 ⟨h4, i4⟩ h5 h6 ⟨h7, i7⟩
  | exportFrom h1 h2 h3 h4 h5 h6 h7 h8 i4 i8 => exact Means.exportFrom h1 h2 h3 ⟨h4, i4⟩ h5 h6 h7 ⟨h8, i8⟩
  | itemStmt h1 h2 i2 => exact Means.itemStmt h1 ⟨h2, i2⟩
  | itemFor h1 i1 => exact Means.itemFor ⟨h1, i1⟩
  | itemImport h1 i1 => exact Means.itemImport ⟨h1, i1⟩
  | itemImportCall h1 h2 h3 i3 => exact Means.itemImportCall h1 h2 ⟨h3, i3⟩
  | itemLet h1 h2 h3 i3 => exact Means.itemLet h1 h2 ⟨h3, i3⟩
  | itemExport h1 i1 => exact Means.itemExport ⟨h1, i1⟩
  | itemLexical h1 i1 => exact Means.itemLexical ⟨h1, i1⟩
  | itemFunction h1 h2 i2 => exact Means.itemFunction h1 ⟨h2, i2⟩
  | itemClass h1 i1 => exact Means.itemClass ⟨h1, i1⟩
  | partsEnd h1 => exact Means.partsEnd h1
  | partsItem h1 h2 h3 i2 i3 => exact Means.partsItem h1 ⟨h2, i2⟩ ⟨h3, i3⟩
  | partsDir h1 h2 h3 h4 h5 i2 i4 i5 => exact Means.partsDir h1 ⟨h2, i2⟩ h3 ⟨h4, i4⟩ ⟨h5, i5⟩
  | partsExpr h1 h2 h3 h4 h5 h6 i2 i5 i6 => exact Means.partsExpr h1 ⟨h2, i2⟩ h3 h4 ⟨h5, i5⟩ ⟨h6, i6⟩

end Ressa.Gr
