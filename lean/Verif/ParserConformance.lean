import Verif.Parser
import Verif.SExp

/-!
# Parser conformance tests (generated by tools/gen_parser_conformance.py)

Every case of `TestParse` (pkg/core/parser/parser_test.go:25-302) replayed on the model.  These
are *tests of the model*, not proofs of properties.
-/

namespace GoBCDice.Conformance

/-- The check made by `TestParse`: the expected S-expression, or none for an expected error.
Characters beyond ASCII of this table are printable. -/
def checkParse (input : Str) (expected : Option Str) : Bool :=
  decide ((parse input).map (Node.sexp fun c => decide (32 ≤ c.toNat ∧ c.toNat ≠ 127)) = expected)

example : (
  checkParse chars!"C(1)" (some chars!"(Calc 1)") &&
  checkParse chars!"C(42)" (some chars!"(Calc 42)") &&
  checkParse chars!"C(-1)" (some chars!"(Calc (- 1))") &&
  checkParse chars!"C(+1)" (some chars!"(Calc 1)") &&
  checkParse chars!"C(1+2)" (some chars!"(Calc (+ 1 2))") &&
  checkParse chars!"C(1-2)" (some chars!"(Calc (- 1 2))") &&
  checkParse chars!"C(1*2)" (some chars!"(Calc (* 1 2))") &&
  checkParse chars!"C(1/2)" (some chars!"(Calc (/ 1 2))") &&
  checkParse chars!"C(1/2u)" (some chars!"(Calc (/U 1 2))") &&
  checkParse chars!"C(1/2r)" (some chars!"(Calc (/R 1 2))") &&
  checkParse chars!"C(-1+2)" (some chars!"(Calc (+ (- 1) 2))") &&
  checkParse chars!"C(+1+2)" (some chars!"(Calc (+ 1 2))") &&
  checkParse chars!"C(1+2-3)" (some chars!"(Calc (- (+ 1 2) 3))") &&
  checkParse chars!"C(1*2+3)" (some chars!"(Calc (+ (* 1 2) 3))") &&
  checkParse chars!"C(1/2+3)" (some chars!"(Calc (+ (/ 1 2) 3))") &&
  checkParse chars!"C(1+2*3)" (some chars!"(Calc (+ 1 (* 2 3)))") &&
  checkParse chars!"C(1+2/3)" (some chars!"(Calc (+ 1 (/ 2 3)))") &&
  checkParse chars!"C(1+(2-3))" (some chars!"(Calc (+ 1 (- 2 3)))") &&
  checkParse chars!"C((1+2)*3)" (some chars!"(Calc (* (+ 1 2) 3))") &&
  checkParse chars!"C((1+2)/3)" (some chars!"(Calc (/ (+ 1 2) 3))")) = true := by decide +kernel

example : (
  checkParse chars!"C((1+2)/3+4*5-6)" (some chars!"(Calc (- (+ (/ (+ 1 2) 3) (* 4 5)) 6))") &&
  checkParse chars!"C((1+2)/3u+4*5-6)" (some chars!"(Calc (- (+ (/U (+ 1 2) 3) (* 4 5)) 6))") &&
  checkParse chars!"C((1+2)/3r+4*5-6)" (some chars!"(Calc (- (+ (/R (+ 1 2) 3) (* 4 5)) 6))") &&
  checkParse chars!"C(100/(1+2))" (some chars!"(Calc (/ 100 (+ 1 2)))") &&
  checkParse chars!"C(100/(1+2)u)" (some chars!"(Calc (/U 100 (+ 1 2)))") &&
  checkParse chars!"C(100/(1+2)r)" (some chars!"(Calc (/R 100 (+ 1 2)))") &&
  checkParse chars!"C(-(1+2))" (some chars!"(Calc (- (+ 1 2)))") &&
  checkParse chars!"C(+(1+2))" (some chars!"(Calc (+ 1 2))") &&
  checkParse chars!"CC(1)" none &&
  checkParse chars!"C(10+5) mokekeke" (some chars!"(Calc (+ 10 5))") &&
  checkParse chars!"C([1...3])" none &&
  checkParse chars!"C([1...3]*2)" none &&
  checkParse chars!"C([(1+2)...(4+5)])" none &&
  checkParse chars!"C([1+2...4-5])" none &&
  checkParse chars!"C([1...2...3])" none &&
  checkParse chars!"2D6" (some chars!"(DRollExpr (DRoll 2 6))") &&
  checkParse chars!"2D6D6" none &&
  checkParse chars!"12D60" (some chars!"(DRollExpr (DRoll 12 60))") &&
  checkParse chars!"1" none &&
  checkParse chars!"-2D6" (some chars!"(DRollExpr (- (DRoll 2 6)))")) = true := by decide +kernel

example : (
  checkParse chars!"+2D6" (some chars!"(DRollExpr (DRoll 2 6))") &&
  checkParse chars!"2D6+1" (some chars!"(DRollExpr (+ (DRoll 2 6) 1))") &&
  checkParse chars!"1+2D6" (some chars!"(DRollExpr (+ 1 (DRoll 2 6)))") &&
  checkParse chars!"1+2D6+2" (some chars!"(DRollExpr (+ (+ 1 (DRoll 2 6)) 2))") &&
  checkParse chars!"-2D6+1" (some chars!"(DRollExpr (+ (- (DRoll 2 6)) 1))") &&
  checkParse chars!"+2D6+1" (some chars!"(DRollExpr (+ (DRoll 2 6) 1))") &&
  checkParse chars!"2d6+1-1-2-3-4" (some chars!"(DRollExpr (- (- (- (- (+ (DRoll 2 6) 1) 1) 2) 3) 4))") &&
  checkParse chars!"2D6+4D10" (some chars!"(DRollExpr (+ (DRoll 2 6) (DRoll 4 10)))") &&
  checkParse chars!"(2D6)" (some chars!"(DRollExpr (DRoll 2 6))") &&
  checkParse chars!"-(2D6)" (some chars!"(DRollExpr (- (DRoll 2 6)))") &&
  checkParse chars!"+(2D6)" (some chars!"(DRollExpr (DRoll 2 6))") &&
  checkParse chars!"(1)" none &&
  checkParse chars!"2d6*3" (some chars!"(DRollExpr (* (DRoll 2 6) 3))") &&
  checkParse chars!"2d6/2" (some chars!"(DRollExpr (/ (DRoll 2 6) 2))") &&
  checkParse chars!"2d6/2u" (some chars!"(DRollExpr (/U (DRoll 2 6) 2))") &&
  checkParse chars!"2d6/2r" (some chars!"(DRollExpr (/R (DRoll 2 6) 2))") &&
  checkParse chars!"100/2d6+1" (some chars!"(DRollExpr (+ (/ 100 (DRoll 2 6)) 1))") &&
  checkParse chars!"100/2d6u+1" (some chars!"(DRollExpr (+ (/U 100 (DRoll 2 6)) 1))") &&
  checkParse chars!"100/2d6r+1" (some chars!"(DRollExpr (+ (/R 100 (DRoll 2 6)) 1))") &&
  checkParse chars!"100/(2d6+1)+4*5" (some chars!"(DRollExpr (+ (/ 100 (+ (DRoll 2 6) 1)) (* 4 5)))")) = true := by decide +kernel

example : (
  checkParse chars!"100/(2d6+1)u+4*5" (some chars!"(DRollExpr (+ (/U 100 (+ (DRoll 2 6) 1)) (* 4 5)))") &&
  checkParse chars!"100/(2d6+1)r+4*5" (some chars!"(DRollExpr (+ (/R 100 (+ (DRoll 2 6) 1)) (* 4 5)))") &&
  checkParse chars!"4d10/2d6+1" (some chars!"(DRollExpr (+ (/ (DRoll 4 10) (DRoll 2 6)) 1))") &&
  checkParse chars!"4d10/2d6u+1" (some chars!"(DRollExpr (+ (/U (DRoll 4 10) (DRoll 2 6)) 1))") &&
  checkParse chars!"4d10/2d6r+1" (some chars!"(DRollExpr (+ (/R (DRoll 4 10) (DRoll 2 6)) 1))") &&
  checkParse chars!"2d10+3-4" (some chars!"(DRollExpr (- (+ (DRoll 2 10) 3) 4))") &&
  checkParse chars!"2d10+3*4" (some chars!"(DRollExpr (+ (DRoll 2 10) (* 3 4)))") &&
  checkParse chars!"2d10/3+4*5-6" (some chars!"(DRollExpr (- (+ (/ (DRoll 2 10) 3) (* 4 5)) 6))") &&
  checkParse chars!"2d10/3u+4*5-6" (some chars!"(DRollExpr (- (+ (/U (DRoll 2 10) 3) (* 4 5)) 6))") &&
  checkParse chars!"2d10/3r+4*5-6" (some chars!"(DRollExpr (- (+ (/R (DRoll 2 10) 3) (* 4 5)) 6))") &&
  checkParse chars!"2d6*3-1d6+1" (some chars!"(DRollExpr (+ (- (* (DRoll 2 6) 3) (DRoll 1 6)) 1))") &&
  checkParse chars!"(2+3)d6-1+3d6+2" (some chars!"(DRollExpr (+ (+ (- (DRoll (+ 2 3) 6) 1) (DRoll 3 6)) 2))") &&
  checkParse chars!"(2*3-4)d6-1d4+1" (some chars!"(DRollExpr (+ (- (DRoll (- (* 2 3) 4) 6) (DRoll 1 4)) 1))") &&
  checkParse chars!"((2+3)*4/3)d6*2+5" (some chars!"(DRollExpr (+ (* (DRoll (/ (* (+ 2 3) 4) 3) 6) 2) 5))") &&
  checkParse chars!"2d(1+5)" (some chars!"(DRollExpr (DRoll 2 (+ 1 5)))") &&
  checkParse chars!"(8/2)D(4+6)" (some chars!"(DRollExpr (DRoll (/ 8 2) (+ 4 6)))") &&
  checkParse chars!"(2-1)d(8/2)*(1+1)d(3*4/2)+2*3" (some chars!"(DRollExpr (+ (* (DRoll (- 2 1) (/ 8 2)) (DRoll (+ 1 1) (/ (* 3 4) 2))) (* 2 3)))") &&
  checkParse chars!"[1...5]D6" (some chars!"(DRollExpr (DRoll (RandomNumber 1 5) 6))") &&
  checkParse chars!"([2...4]+2)D10" (some chars!"(DRollExpr (DRoll (+ (RandomNumber 2 4) 2) 10))") &&
  checkParse chars!"[(2+3)...8]D6" (some chars!"(DRollExpr (DRoll (RandomNumber (+ 2 3) 8) 6))")) = true := by decide +kernel

example : (
  checkParse chars!"[5...(7+1)]D6" (some chars!"(DRollExpr (DRoll (RandomNumber 5 (+ 7 1)) 6))") &&
  checkParse chars!"2d[1...5]" (some chars!"(DRollExpr (DRoll 2 (RandomNumber 1 5)))") &&
  checkParse chars!"2d([2...4]+2)" (some chars!"(DRollExpr (DRoll 2 (+ (RandomNumber 2 4) 2)))") &&
  checkParse chars!"2d[(2+3)...8]" (some chars!"(DRollExpr (DRoll 2 (RandomNumber (+ 2 3) 8)))") &&
  checkParse chars!"2d[5...(7+1)]" (some chars!"(DRollExpr (DRoll 2 (RandomNumber 5 (+ 7 1))))") &&
  checkParse chars!"[1...5]d(2*3)" (some chars!"(DRollExpr (DRoll (RandomNumber 1 5) (* 2 3)))") &&
  checkParse chars!"(1+1)d[1...5]" (some chars!"(DRollExpr (DRoll (+ 1 1) (RandomNumber 1 5)))") &&
  checkParse chars!"([1...4]+1)d([2...4]+2)-1" (some chars!"(DRollExpr (- (DRoll (+ (RandomNumber 1 4) 1) (+ (RandomNumber 2 4) 2)) 1))") &&
  checkParse chars!"2d6=7" (some chars!"(DRollComp (= (DRoll 2 6) 7))") &&
  checkParse chars!"2d6<>7" (some chars!"(DRollComp (<> (DRoll 2 6) 7))") &&
  checkParse chars!"2d6>7" (some chars!"(DRollComp (> (DRoll 2 6) 7))") &&
  checkParse chars!"2d6<7" (some chars!"(DRollComp (< (DRoll 2 6) 7))") &&
  checkParse chars!"2d6>=7" (some chars!"(DRollComp (>= (DRoll 2 6) 7))") &&
  checkParse chars!"2d6<=7" (some chars!"(DRollComp (<= (DRoll 2 6) 7))") &&
  checkParse chars!"2d6>=5+3" (some chars!"(DRollComp (>= (DRoll 2 6) (+ 5 3)))") &&
  checkParse chars!"2d6+1>=3+4" (some chars!"(DRollComp (>= (+ (DRoll 2 6) 1) (+ 3 4)))") &&
  checkParse chars!"1+2d6>=3+4" (some chars!"(DRollComp (>= (+ 1 (DRoll 2 6)) (+ 3 4)))") &&
  checkParse chars!"2*(2d6+1)/3<7" (some chars!"(DRollComp (< (/ (* 2 (+ (DRoll 2 6) 1)) 3) 7))") &&
  checkParse chars!"7<2d6" none &&
  checkParse chars!"2d6<7<8" none) = true := by decide +kernel

example : (
  checkParse chars!"1<=2d6<=12" none &&
  checkParse chars!"1<2<2d6" none &&
  checkParse chars!"2b6" (some chars!"(BRollList (BRoll 2 6))") &&
  checkParse chars!"[1...3]b6" (some chars!"(BRollList (BRoll (RandomNumber 1 3) 6))") &&
  checkParse chars!"2b[4...6]" (some chars!"(BRollList (BRoll 2 (RandomNumber 4 6)))") &&
  checkParse chars!"[1...3]b[4...6]" (some chars!"(BRollList (BRoll (RandomNumber 1 3) (RandomNumber 4 6)))") &&
  checkParse chars!"(1*2)b6" (some chars!"(BRollList (BRoll (* 1 2) 6))") &&
  checkParse chars!"([1...3]+1)b6" (some chars!"(BRollList (BRoll (+ (RandomNumber 1 3) 1) 6))") &&
  checkParse chars!"2b(2+4)" (some chars!"(BRollList (BRoll 2 (+ 2 4)))") &&
  checkParse chars!"2b([3...5]+1)" (some chars!"(BRollList (BRoll 2 (+ (RandomNumber 3 5) 1)))") &&
  checkParse chars!"[1...5]b(2*3)" (some chars!"(BRollList (BRoll (RandomNumber 1 5) (* 2 3)))") &&
  checkParse chars!"(1+1)b[1...5]" (some chars!"(BRollList (BRoll (+ 1 1) (RandomNumber 1 5)))") &&
  checkParse chars!"(1*2)b(2+4)" (some chars!"(BRollList (BRoll (* 1 2) (+ 2 4)))") &&
  checkParse chars!"2b6+4b10" (some chars!"(BRollList (BRoll 2 6) (BRoll 4 10))") &&
  checkParse chars!"2b6+3b8+5b12" (some chars!"(BRollList (BRoll 2 6) (BRoll 3 8) (BRoll 5 12))") &&
  checkParse chars!"2b6+1" none &&
  checkParse chars!"1+2b6" none &&
  checkParse chars!"2b6=3" (some chars!"(BRollComp (= (BRollList (BRoll 2 6)) 3))") &&
  checkParse chars!"2b6<>3" (some chars!"(BRollComp (<> (BRollList (BRoll 2 6)) 3))") &&
  checkParse chars!"2b6>3" (some chars!"(BRollComp (> (BRollList (BRoll 2 6)) 3))")) = true := by decide +kernel

example : (
  checkParse chars!"2b6<3" (some chars!"(BRollComp (< (BRollList (BRoll 2 6)) 3))") &&
  checkParse chars!"2b6>=3" (some chars!"(BRollComp (>= (BRollList (BRoll 2 6)) 3))") &&
  checkParse chars!"2b6<=3" (some chars!"(BRollComp (<= (BRollList (BRoll 2 6)) 3))") &&
  checkParse chars!"2b6>4-1" (some chars!"(BRollComp (> (BRollList (BRoll 2 6)) (- 4 1)))") &&
  checkParse chars!"2b6+4b10>4" (some chars!"(BRollComp (> (BRollList (BRoll 2 6) (BRoll 4 10)) 4))") &&
  checkParse chars!"2b6>-(-1*3)" (some chars!"(BRollComp (> (BRollList (BRoll 2 6)) (- (* (- 1) 3))))") &&
  checkParse chars!"2b6+1>3" none &&
  checkParse chars!"1+2b6>3" none &&
  checkParse chars!"3<2b6" none &&
  checkParse chars!"1<2b6<5" none &&
  checkParse chars!"2b6<4<5" none &&
  checkParse chars!"1<2<2b6" none &&
  checkParse chars!"3r6=4" (some chars!"(RRollComp (= (RRollList nil (RRoll 3 6)) 4))") &&
  checkParse chars!"3r6<>4" (some chars!"(RRollComp (<> (RRollList nil (RRoll 3 6)) 4))") &&
  checkParse chars!"3r6>4" (some chars!"(RRollComp (> (RRollList nil (RRoll 3 6)) 4))") &&
  checkParse chars!"3r6<4" (some chars!"(RRollComp (< (RRollList nil (RRoll 3 6)) 4))") &&
  checkParse chars!"3r6>=4" (some chars!"(RRollComp (>= (RRollList nil (RRoll 3 6)) 4))") &&
  checkParse chars!"3r6<=4" (some chars!"(RRollComp (<= (RRollList nil (RRoll 3 6)) 4))") &&
  checkParse chars!"3r6+2r6<=2" (some chars!"(RRollComp (<= (RRollList nil (RRoll 3 6) (RRoll 2 6)) 2))") &&
  checkParse chars!"(3+2)r6>=5" (some chars!"(RRollComp (>= (RRollList nil (RRoll (+ 3 2) 6)) 5))")) = true := by decide +kernel

example : (
  checkParse chars!"1r(2*3)>=4" (some chars!"(RRollComp (>= (RRollList nil (RRoll 1 (* 2 3))) 4))") &&
  checkParse chars!"3r6>1*4" (some chars!"(RRollComp (> (RRollList nil (RRoll 3 6)) (* 1 4)))") &&
  checkParse chars!"2r6" (some chars!"(RRollList nil (RRoll 2 6))") &&
  checkParse chars!"2r6[5]" (some chars!"(RRollList 5 (RRoll 2 6))") &&
  checkParse chars!"3r6+2r6[2]" (some chars!"(RRollList 2 (RRoll 3 6) (RRoll 2 6))") &&
  checkParse chars!"6R6[6]>=5" (some chars!"(RRollComp (>= (RRollList 6 (RRoll 6 6)) 5))") &&
  checkParse chars!"6R6[2*3]>=5" (some chars!"(RRollComp (>= (RRollList (* 2 3) (RRoll 6 6)) 5))") &&
  checkParse chars!"2r6+1>=4" none &&
  checkParse chars!"1<3r6<4" none &&
  checkParse chars!"3u6" (some chars!"(URollExpr (RRollList nil (URoll 3 6)))") &&
  checkParse chars!"(1*3)u6" (some chars!"(URollExpr (RRollList nil (URoll (* 1 3) 6)))") &&
  checkParse chars!"3u(5+1)" (some chars!"(URollExpr (RRollList nil (URoll 3 (+ 5 1))))") &&
  checkParse chars!"3u6[6]" (some chars!"(URollExpr (RRollList 6 (URoll 3 6)))") &&
  checkParse chars!"3u6[2+4]" (some chars!"(URollExpr (RRollList (+ 2 4) (URoll 3 6)))") &&
  checkParse chars!"3u6+5u6[6]" (some chars!"(URollExpr (RRollList 6 (URoll 3 6) (URoll 5 6)))") &&
  checkParse chars!"3u6[6]+1" (some chars!"(URollExpr (+ (RRollList 6 (URoll 3 6)) 1))") &&
  checkParse chars!"3u6[6]-1" (some chars!"(URollExpr (- (RRollList 6 (URoll 3 6)) 1))") &&
  checkParse chars!"1U100[96]+3" (some chars!"(URollExpr (+ (RRollList 96 (URoll 1 100)) 3))") &&
  checkParse chars!"3u6[6]=10" (some chars!"(URollComp (= (URollExpr (RRollList 6 (URoll 3 6))) 10))") &&
  checkParse chars!"3u6[6]<>10" (some chars!"(URollComp (<> (URollExpr (RRollList 6 (URoll 3 6))) 10))")) = true := by decide +kernel

example : (
  checkParse chars!"3u6[6]>10" (some chars!"(URollComp (> (URollExpr (RRollList 6 (URoll 3 6))) 10))") &&
  checkParse chars!"3u6[6]<10" (some chars!"(URollComp (< (URollExpr (RRollList 6 (URoll 3 6))) 10))") &&
  checkParse chars!"3u6[6]>=10" (some chars!"(URollComp (>= (URollExpr (RRollList 6 (URoll 3 6))) 10))") &&
  checkParse chars!"3u6[6]<=10" (some chars!"(URollComp (<= (URollExpr (RRollList 6 (URoll 3 6))) 10))") &&
  checkParse chars!"3u6[6]>=2+8" (some chars!"(URollComp (>= (URollExpr (RRollList 6 (URoll 3 6))) (+ 2 8)))") &&
  checkParse chars!"3u6[6]+1>=10" (some chars!"(URollComp (>= (URollExpr (+ (RRollList 6 (URoll 3 6)) 1)) 10))") &&
  checkParse chars!"3u6+5u6[6]>=7" (some chars!"(URollComp (>= (URollExpr (RRollList 6 (URoll 3 6) (URoll 5 6))) 7))") &&
  checkParse chars!"(5+6)u10[10]+5>=8" (some chars!"(URollComp (>= (URollExpr (+ (RRollList 10 (URoll (+ 5 6) 10)) 5)) 8))") &&
  checkParse chars!"5<3u6[6]<10" none &&
  checkParse chars!"choice[A,B,C]どれにしよう" (some chars!"(Choice \"A\" \"B\" \"C\")") &&
  checkParse chars!"choice[A,B, ]" (some chars!"(Choice \"A\" \"B\")") &&
  checkParse chars!"Choice[ A, B,   C     ,D ]" (some chars!"(Choice \"A\" \"B\" \"C\" \"D\")") &&
  checkParse chars!"CHOICE[Call of Cthulhu, Sword World, Double Cross]" (some chars!"(Choice \"Call of Cthulhu\" \"Sword World\" \"Double Cross\")") &&
  checkParse chars!"CHOICE[日本語, でも,　だいじょうぶ]" (some chars!"(Choice \"日本語\" \"でも\" \"だいじょうぶ\")") &&
  checkParse chars!"choice[1+2, (3*4), 5d6]" (some chars!"(Choice \"1+2\" \"(3*4)\" \"5d6\")") &&
  checkParse chars!"choice[forgetting R_BRACKET!" none) = true := by decide +kernel

end GoBCDice.Conformance
