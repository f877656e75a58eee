import Verif.BCDice

/-!
# Conformance tests (generated by tools/gen_conformance.py)

Every test case of `pkg/dicebot/gamesystem/basic/testdata/*.txt` replayed on the model: the
message must be the recorded one and the dice queue must end empty, as in
`pkg/dicebot/testing/testing.go:36-76`.  These are *tests of the model against the project's
recorded behaviour*, not proofs of properties.
-/

namespace GoBCDice.Conformance

/-- The check made by `testing.Run` (pkg/dicebot/testing/testing.go:36-76): expected output
(empty = an error is expected), secret marker, and an empty queue after success. -/
def check (input : Str) (output : Str) (dice : List Die) : Bool :=
  match executeCommand queueFeeder (basicBot []) input dice with
  | (.ok r, q) =>
    decide (r.message ++ (if r.isSecret then chars!"###secret dice###" else []) = output) && q.isEmpty
  | (.err _, _) => output.isEmpty
  | (.panic _, _) => false

/-- pkg/dicebot/gamesystem/basic/testdata/b_roll_comp.txt (27 cases) -/
example : (
  check chars!"2b6=3" chars!"DiceBot : (2B6=3) ＞ 3,4 ＞ 成功数1" [⟨3, 6⟩, ⟨4, 6⟩] &&
  check chars!"2b6=3" chars!"DiceBot : (2B6=3) ＞ 2,1 ＞ 成功数0" [⟨2, 6⟩, ⟨1, 6⟩] &&
  check chars!"2b6<>3" chars!"DiceBot : (2B6<>3) ＞ 3,4 ＞ 成功数1" [⟨3, 6⟩, ⟨4, 6⟩] &&
  check chars!"2b6<>3" chars!"DiceBot : (2B6<>3) ＞ 2,1 ＞ 成功数2" [⟨2, 6⟩, ⟨1, 6⟩] &&
  check chars!"2b6>3" chars!"DiceBot : (2B6>3) ＞ 3,4 ＞ 成功数1" [⟨3, 6⟩, ⟨4, 6⟩] &&
  check chars!"2b6>3" chars!"DiceBot : (2B6>3) ＞ 2,1 ＞ 成功数0" [⟨2, 6⟩, ⟨1, 6⟩] &&
  check chars!"2b6<3" chars!"DiceBot : (2B6<3) ＞ 3,4 ＞ 成功数0" [⟨3, 6⟩, ⟨4, 6⟩] &&
  check chars!"2b6<3" chars!"DiceBot : (2B6<3) ＞ 2,1 ＞ 成功数2" [⟨2, 6⟩, ⟨1, 6⟩] &&
  check chars!"2b6>=3" chars!"DiceBot : (2B6>=3) ＞ 3,4 ＞ 成功数2" [⟨3, 6⟩, ⟨4, 6⟩] &&
  check chars!"2b6>=3" chars!"DiceBot : (2B6>=3) ＞ 2,1 ＞ 成功数0" [⟨2, 6⟩, ⟨1, 6⟩] &&
  check chars!"2b6<=3" chars!"DiceBot : (2B6<=3) ＞ 3,4 ＞ 成功数1" [⟨3, 6⟩, ⟨4, 6⟩] &&
  check chars!"2b6<=3" chars!"DiceBot : (2B6<=3) ＞ 2,1 ＞ 成功数2" [⟨2, 6⟩, ⟨1, 6⟩] &&
  check chars!"2b6+4b10>3" chars!"DiceBot : (2B6+4B10>3) ＞ 3,4,9,7,1,5 ＞ 成功数4" [⟨3, 6⟩, ⟨4, 6⟩, ⟨9, 10⟩, ⟨7, 10⟩, ⟨1, 10⟩, ⟨5, 10⟩] &&
  check chars!"2b6+4b10>3" chars!"DiceBot : (2B6+4B10>3) ＞ 3,2,5,7,1,3 ＞ 成功数2" [⟨3, 6⟩, ⟨2, 6⟩, ⟨5, 10⟩, ⟨7, 10⟩, ⟨1, 10⟩, ⟨3, 10⟩] &&
  check chars!"2b6+3b8+5b12<5" chars!"DiceBot : (2B6+3B8+5B12<5) ＞ 5,2,7,3,4,11,9,8,12,6 ＞ 成功数3" [⟨5, 6⟩, ⟨2, 6⟩, ⟨7, 8⟩, ⟨3, 8⟩, ⟨4, 8⟩, ⟨11, 12⟩, ⟨9, 12⟩, ⟨8, 12⟩, ⟨12, 12⟩, ⟨6, 12⟩] &&
  check chars!"2b6+3b8+5b12<5" chars!"DiceBot : (2B6+3B8+5B12<5) ＞ 3,4,7,1,5,11,3,4,10,9 ＞ 成功数5" [⟨3, 6⟩, ⟨4, 6⟩, ⟨7, 8⟩, ⟨1, 8⟩, ⟨5, 8⟩, ⟨11, 12⟩, ⟨3, 12⟩, ⟨4, 12⟩, ⟨10, 12⟩, ⟨9, 12⟩] &&
  check chars!"[1...3]b6>3" chars!"DiceBot : (1B6>3) ＞ 5 ＞ 成功数1" [⟨1, 3⟩, ⟨5, 6⟩] &&
  check chars!"[1...3]b6>3" chars!"DiceBot : (3B6>3) ＞ 2,4,6 ＞ 成功数2" [⟨3, 3⟩, ⟨2, 6⟩, ⟨4, 6⟩, ⟨6, 6⟩] &&
  check chars!"2b[4...6]>3" chars!"DiceBot : (2B4>3) ＞ 3,4 ＞ 成功数1" [⟨1, 3⟩, ⟨3, 4⟩, ⟨4, 4⟩] &&
  check chars!"2b[4...6]>3" chars!"DiceBot : (2B5>3) ＞ 5,1 ＞ 成功数1" [⟨2, 3⟩, ⟨5, 5⟩, ⟨1, 5⟩]) = true := by decide +kernel

example : (
  check chars!"[1...3]b[4...6]>3" chars!"DiceBot : (3B6>3) ＞ 6,4,3 ＞ 成功数2" [⟨3, 3⟩, ⟨3, 3⟩, ⟨6, 6⟩, ⟨4, 6⟩, ⟨3, 6⟩] &&
  check chars!"(1*2)b6>3" chars!"DiceBot : (2B6>3) ＞ 3,4 ＞ 成功数1" [⟨3, 6⟩, ⟨4, 6⟩] &&
  check chars!"([1...3]+1)b6>3" chars!"DiceBot : (3B6>3) ＞ 2,4,3 ＞ 成功数1" [⟨2, 3⟩, ⟨2, 6⟩, ⟨4, 6⟩, ⟨3, 6⟩] &&
  check chars!"2b(2+4)>3" chars!"DiceBot : (2B6>3) ＞ 3,4 ＞ 成功数1" [⟨3, 6⟩, ⟨4, 6⟩] &&
  check chars!"2b([3...5]+1)>3" chars!"DiceBot : (2B5>3) ＞ 1,3 ＞ 成功数0" [⟨2, 3⟩, ⟨1, 5⟩, ⟨3, 5⟩] &&
  check chars!"(1*2)b(2+4)>3" chars!"DiceBot : (2B6>3) ＞ 4,3 ＞ 成功数1" [⟨4, 6⟩, ⟨3, 6⟩] &&
  check chars!"2b6>=1+3" chars!"DiceBot : (2B6>=4) ＞ 4,3 ＞ 成功数1" [⟨4, 6⟩, ⟨3, 6⟩]) = true := by decide +kernel

/-- pkg/dicebot/gamesystem/basic/testdata/b_roll_list.txt (17 cases) -/
example : (
  check chars!"2b6" chars!"DiceBot : (2B6) ＞ 3,4" [⟨3, 6⟩, ⟨4, 6⟩] &&
  check chars!"2b6" chars!"DiceBot : (2B6) ＞ 6,1" [⟨6, 6⟩, ⟨1, 6⟩] &&
  check chars!"[1...3]b6" chars!"DiceBot : (1B6) ＞ 5" [⟨1, 3⟩, ⟨5, 6⟩] &&
  check chars!"[1...3]b6" chars!"DiceBot : (3B6) ＞ 2,4,6" [⟨3, 3⟩, ⟨2, 6⟩, ⟨4, 6⟩, ⟨6, 6⟩] &&
  check chars!"2b[4...6]" chars!"DiceBot : (2B4) ＞ 3,4" [⟨1, 3⟩, ⟨3, 4⟩, ⟨4, 4⟩] &&
  check chars!"2b[4...6]" chars!"DiceBot : (2B5) ＞ 5,1" [⟨2, 3⟩, ⟨5, 5⟩, ⟨1, 5⟩] &&
  check chars!"[1...3]b[4...6]" chars!"DiceBot : (3B6) ＞ 6,4,3" [⟨3, 3⟩, ⟨3, 3⟩, ⟨6, 6⟩, ⟨4, 6⟩, ⟨3, 6⟩] &&
  check chars!"(1*2)b6" chars!"DiceBot : (2B6) ＞ 3,4" [⟨3, 6⟩, ⟨4, 6⟩] &&
  check chars!"([1...3]+1)b6" chars!"DiceBot : (3B6) ＞ 2,4,3" [⟨2, 3⟩, ⟨2, 6⟩, ⟨4, 6⟩, ⟨3, 6⟩] &&
  check chars!"2b(2+4)" chars!"DiceBot : (2B6) ＞ 3,4" [⟨3, 6⟩, ⟨4, 6⟩] &&
  check chars!"2b([3...5]+1)" chars!"DiceBot : (2B5) ＞ 1,3" [⟨2, 3⟩, ⟨1, 5⟩, ⟨3, 5⟩] &&
  check chars!"[1...5]b(2*3)" chars!"DiceBot : (5B6) ＞ 3,5,1,5,6" [⟨5, 5⟩, ⟨3, 6⟩, ⟨5, 6⟩, ⟨1, 6⟩, ⟨5, 6⟩, ⟨6, 6⟩] &&
  check chars!"(1+1)b[1...5]" chars!"DiceBot : (2B4) ＞ 3,4" [⟨4, 5⟩, ⟨3, 4⟩, ⟨4, 4⟩] &&
  check chars!"(1*2)b(2+4)" chars!"DiceBot : (2B6) ＞ 4,3" [⟨4, 6⟩, ⟨3, 6⟩] &&
  check chars!"2b6+4b10" chars!"DiceBot : (2B6+4B10) ＞ 1,3,1,10,3,1" [⟨1, 6⟩, ⟨3, 6⟩, ⟨1, 10⟩, ⟨10, 10⟩, ⟨3, 10⟩, ⟨1, 10⟩] &&
  check chars!"2b6+4b10" chars!"DiceBot : (2B6+4B10) ＞ 3,2,5,7,1,3" [⟨3, 6⟩, ⟨2, 6⟩, ⟨5, 10⟩, ⟨7, 10⟩, ⟨1, 10⟩, ⟨3, 10⟩] &&
  check chars!"2b6+3b8+5b12" chars!"DiceBot : (2B6+3B8+5B12) ＞ 3,4,7,1,5,11,3,4,10,9" [⟨3, 6⟩, ⟨4, 6⟩, ⟨7, 8⟩, ⟨1, 8⟩, ⟨5, 8⟩, ⟨11, 12⟩, ⟨3, 12⟩, ⟨4, 12⟩, ⟨10, 12⟩, ⟨9, 12⟩]) = true := by decide +kernel

/-- pkg/dicebot/gamesystem/basic/testdata/calc.txt (65 cases) -/
example : (
  check chars!"C(1+2)" chars!"DiceBot : C(1+2) ＞ 計算結果 ＞ 3" [] &&
  check chars!"C(2-1)" chars!"DiceBot : C(2-1) ＞ 計算結果 ＞ 1" [] &&
  check chars!"C(1-2)" chars!"DiceBot : C(1-2) ＞ 計算結果 ＞ -1" [] &&
  check chars!"C(2*3)" chars!"DiceBot : C(2*3) ＞ 計算結果 ＞ 6" [] &&
  check chars!"C(6/2)" chars!"DiceBot : C(6/2) ＞ 計算結果 ＞ 3" [] &&
  check chars!"C(2/3)" chars!"DiceBot : C(2/3) ＞ 計算結果 ＞ 0" [] &&
  check chars!"C(12/3-2*6)" chars!"DiceBot : C(12/3-2*6) ＞ 計算結果 ＞ -8" [] &&
  check chars!"C(99/21*11-23+57/3*7+13-17)" chars!"DiceBot : C(99/21*11-23+57/3*7+13-17) ＞ 計算結果 ＞ 150" [] &&
  check chars!"C(20+10)" chars!"DiceBot : C(20+10) ＞ 計算結果 ＞ 30" [] &&
  check chars!"C(10*5)" chars!"DiceBot : C(10*5) ＞ 計算結果 ＞ 50" [] &&
  check chars!"c(30-10/2)" chars!"DiceBot : C(30-10/2) ＞ 計算結果 ＞ 25" [] &&
  check chars!"c((10+10)*9)" chars!"DiceBot : C((10+10)*9) ＞ 計算結果 ＞ 180" [] &&
  check chars!"C(10+5) mokekeke" chars!"DiceBot : C(10+5) ＞ 計算結果 ＞ 15" [] &&
  check chars!"C(10/2+(5*2)-(3+1))" chars!"DiceBot : C(10/2+5*2-(3+1)) ＞ 計算結果 ＞ 11" [] &&
  check chars!"C(5-(1-2))" chars!"DiceBot : C(5-(1-2)) ＞ 計算結果 ＞ 6" [] &&
  check chars!"C(10/2)" chars!"DiceBot : C(10/2) ＞ 計算結果 ＞ 5" [] &&
  check chars!"C(-1-1)" chars!"DiceBot : C(-1-1) ＞ 計算結果 ＞ -2" [] &&
  check chars!"C(-1--1)" chars!"DiceBot : C(-1-(-1)) ＞ 計算結果 ＞ 0" [] &&
  check chars!"C(-1---1)" chars!"DiceBot : C(-1-(-(-1))) ＞ 計算結果 ＞ -2" [] &&
  check chars!"C(-1----1)" chars!"DiceBot : C(-1-(-(-(-1)))) ＞ 計算結果 ＞ 0" []) = true := by decide +kernel

example : (
  check chars!"C(-1)" chars!"DiceBot : C(-1) ＞ 計算結果 ＞ -1" [] &&
  check chars!"C((-1)*(-1))" chars!"DiceBot : C(-1*(-1)) ＞ 計算結果 ＞ 1" [] &&
  check chars!"C(-1*-1)" chars!"DiceBot : C(-1*(-1)) ＞ 計算結果 ＞ 1" [] &&
  check chars!"C(5/-1)" chars!"DiceBot : C(5/(-1)) ＞ 計算結果 ＞ -5" [] &&
  check chars!"C(10/2)" chars!"DiceBot : C(10/2) ＞ 計算結果 ＞ 5" [] &&
  check chars!"C(1+(128/2)/2)" chars!"DiceBot : C(1+128/2/2) ＞ 計算結果 ＞ 33" [] &&
  check chars!"C(-1+-1)" chars!"DiceBot : C(-1+(-1)) ＞ 計算結果 ＞ -2" [] &&
  check chars!"C(-1+-1*2-32/8)" chars!"DiceBot : C(-1+(-1)*2-32/8) ＞ 計算結果 ＞ -7" [] &&
  check chars!"C(-20/-10)" chars!"DiceBot : C(-20/(-10)) ＞ 計算結果 ＞ 2" [] &&
  check chars!"C(-20/5)" chars!"DiceBot : C(-20/5) ＞ 計算結果 ＞ -4" [] &&
  check chars!"C(20/-4)" chars!"DiceBot : C(20/(-4)) ＞ 計算結果 ＞ -5" [] &&
  check chars!"C(5)" chars!"DiceBot : C(5) ＞ 計算結果 ＞ 5" [] &&
  check chars!"C(10)" chars!"DiceBot : C(10) ＞ 計算結果 ＞ 10" [] &&
  check chars!"C(42)" chars!"DiceBot : C(42) ＞ 計算結果 ＞ 42" [] &&
  check chars!"C(65535)" chars!"DiceBot : C(65535) ＞ 計算結果 ＞ 65535" [] &&
  check chars!"C(-5)" chars!"DiceBot : C(-5) ＞ 計算結果 ＞ -5" [] &&
  check chars!"C(-10)" chars!"DiceBot : C(-10) ＞ 計算結果 ＞ -10" [] &&
  check chars!"C(-42)" chars!"DiceBot : C(-42) ＞ 計算結果 ＞ -42" [] &&
  check chars!"C(-65535)" chars!"DiceBot : C(-65535) ＞ 計算結果 ＞ -65535" [] &&
  check chars!"C(+5)" chars!"DiceBot : C(5) ＞ 計算結果 ＞ 5" []) = true := by decide +kernel

example : (
  check chars!"C(+10)" chars!"DiceBot : C(10) ＞ 計算結果 ＞ 10" [] &&
  check chars!"C(+42)" chars!"DiceBot : C(42) ＞ 計算結果 ＞ 42" [] &&
  check chars!"C(+65535)" chars!"DiceBot : C(65535) ＞ 計算結果 ＞ 65535" [] &&
  check chars!"C(1+2)" chars!"DiceBot : C(1+2) ＞ 計算結果 ＞ 3" [] &&
  check chars!"C(1-2)" chars!"DiceBot : C(1-2) ＞ 計算結果 ＞ -1" [] &&
  check chars!"C(1*2)" chars!"DiceBot : C(1*2) ＞ 計算結果 ＞ 2" [] &&
  check chars!"C(1/2)" chars!"DiceBot : C(1/2) ＞ 計算結果 ＞ 0" [] &&
  check chars!"C(-1+2)" chars!"DiceBot : C(-1+2) ＞ 計算結果 ＞ 1" [] &&
  check chars!"C(+1+2)" chars!"DiceBot : C(1+2) ＞ 計算結果 ＞ 3" [] &&
  check chars!"C(1+2-3)" chars!"DiceBot : C(1+2-3) ＞ 計算結果 ＞ 0" [] &&
  check chars!"C(1*2+3)" chars!"DiceBot : C(1*2+3) ＞ 計算結果 ＞ 5" [] &&
  check chars!"C(1/2+3)" chars!"DiceBot : C(1/2+3) ＞ 計算結果 ＞ 3" [] &&
  check chars!"C(1+2*3)" chars!"DiceBot : C(1+2*3) ＞ 計算結果 ＞ 7" [] &&
  check chars!"C(1+2/3)" chars!"DiceBot : C(1+2/3) ＞ 計算結果 ＞ 1" [] &&
  check chars!"C(1+(2-3))" chars!"DiceBot : C(1+2-3) ＞ 計算結果 ＞ 0" [] &&
  check chars!"C((1+2)*3)" chars!"DiceBot : C((1+2)*3) ＞ 計算結果 ＞ 9" [] &&
  check chars!"C((1+2)/3)" chars!"DiceBot : C((1+2)/3) ＞ 計算結果 ＞ 1" [] &&
  check chars!"C(-(1+2))" chars!"DiceBot : C(-(1+2)) ＞ 計算結果 ＞ -3" [] &&
  check chars!"C(+(1+2))" chars!"DiceBot : C(1+2) ＞ 計算結果 ＞ 3" [] &&
  check chars!"C(1+50/3-2)" chars!"DiceBot : C(1+50/3-2) ＞ 計算結果 ＞ 15" []) = true := by decide +kernel

example : (
  check chars!"C(1+50/3u-2)" chars!"DiceBot : C(1+50/3U-2) ＞ 計算結果 ＞ 16" [] &&
  check chars!"C(1+50/3r-2)" chars!"DiceBot : C(1+50/3R-2) ＞ 計算結果 ＞ 16" [] &&
  check chars!"C(1+100/3-2)" chars!"DiceBot : C(1+100/3-2) ＞ 計算結果 ＞ 32" [] &&
  check chars!"C(1+100/3u-2)" chars!"DiceBot : C(1+100/3U-2) ＞ 計算結果 ＞ 33" [] &&
  check chars!"C(1+100/3r-2)" chars!"DiceBot : C(1+100/3R-2) ＞ 計算結果 ＞ 32" []) = true := by decide +kernel

/-- pkg/dicebot/gamesystem/basic/testdata/choice.txt (14 cases) -/
example : (
  check chars!"choice[abc,def]" chars!"DiceBot : (CHOICE[abc,def]) ＞ abc" [⟨1, 2⟩] &&
  check chars!"choice[A,B,C,D]どれにしよう" chars!"DiceBot : (CHOICE[A,B,C,D]) ＞ A" [⟨1, 4⟩] &&
  check chars!"choice[A,B,C,D]どれにしよう" chars!"DiceBot : (CHOICE[A,B,C,D]) ＞ B" [⟨2, 4⟩] &&
  check chars!"choice[A,B,C,D]どれにしよう" chars!"DiceBot : (CHOICE[A,B,C,D]) ＞ C" [⟨3, 4⟩] &&
  check chars!"choice[A,B,C,D]どれにしよう" chars!"DiceBot : (CHOICE[A,B,C,D]) ＞ D" [⟨4, 4⟩] &&
  check chars!"CHOICE[Call of Cthulhu, Sword World, Double Cross]" chars!"DiceBot : (CHOICE[Call of Cthulhu,Sword World,Double Cross]) ＞ Call of Cthulhu" [⟨1, 3⟩] &&
  check chars!"CHOICE[Call of Cthulhu, Sword World, Double Cross]" chars!"DiceBot : (CHOICE[Call of Cthulhu,Sword World,Double Cross]) ＞ Sword World" [⟨2, 3⟩] &&
  check chars!"CHOICE[Call of Cthulhu, Sword World, Double Cross]" chars!"DiceBot : (CHOICE[Call of Cthulhu,Sword World,Double Cross]) ＞ Double Cross" [⟨3, 3⟩] &&
  check chars!"CHOICE[日本語, でも,　だいじょうぶ]" chars!"DiceBot : (CHOICE[日本語,でも,だいじょうぶ]) ＞ 日本語" [⟨1, 3⟩] &&
  check chars!"CHOICE[日本語, でも,　だいじょうぶ]" chars!"DiceBot : (CHOICE[日本語,でも,だいじょうぶ]) ＞ でも" [⟨2, 3⟩] &&
  check chars!"CHOICE[日本語, でも,　だいじょうぶ]" chars!"DiceBot : (CHOICE[日本語,でも,だいじょうぶ]) ＞ だいじょうぶ" [⟨3, 3⟩] &&
  check chars!"choice[1+2, (3*4), 5d6]" chars!"DiceBot : (CHOICE[1+2,(3*4),5d6]) ＞ 1+2" [⟨1, 3⟩] &&
  check chars!"choice[1+2, (3*4), 5d6]" chars!"DiceBot : (CHOICE[1+2,(3*4),5d6]) ＞ (3*4)" [⟨2, 3⟩] &&
  check chars!"choice[1+2, (3*4), 5d6]" chars!"DiceBot : (CHOICE[1+2,(3*4),5d6]) ＞ 5d6" [⟨3, 3⟩]) = true := by decide +kernel

/-- pkg/dicebot/gamesystem/basic/testdata/d_roll_comp.txt (24 cases) -/
example : (
  check chars!"2D6=7" chars!"DiceBot : (2D6=7) ＞ 7[3,4] ＞ 7 ＞ 成功" [⟨3, 6⟩, ⟨4, 6⟩] &&
  check chars!"2D6=7" chars!"DiceBot : (2D6=7) ＞ 6[3,3] ＞ 6 ＞ 失敗" [⟨3, 6⟩, ⟨3, 6⟩] &&
  check chars!"2D6=7" chars!"DiceBot : (2D6=7) ＞ 6[3,3] ＞ 6 ＞ 失敗" [⟨3, 6⟩, ⟨3, 6⟩] &&
  check chars!"2D6+1=3+4" chars!"DiceBot : (2D6+1=7) ＞ 6[2,4]+1 ＞ 7 ＞ 成功" [⟨2, 6⟩, ⟨4, 6⟩] &&
  check chars!"2D6+1=3+4" chars!"DiceBot : (2D6+1=7) ＞ 7[3,4]+1 ＞ 8 ＞ 失敗" [⟨3, 6⟩, ⟨4, 6⟩] &&
  check chars!"2D6<>7" chars!"DiceBot : (2D6<>7) ＞ 7[3,4] ＞ 7 ＞ 失敗" [⟨3, 6⟩, ⟨4, 6⟩] &&
  check chars!"2D6<>7" chars!"DiceBot : (2D6<>7) ＞ 6[3,3] ＞ 6 ＞ 成功" [⟨3, 6⟩, ⟨3, 6⟩] &&
  check chars!"2D6<>7" chars!"DiceBot : (2D6<>7) ＞ 8[3,5] ＞ 8 ＞ 成功" [⟨3, 6⟩, ⟨5, 6⟩] &&
  check chars!"2D6<7" chars!"DiceBot : (2D6<7) ＞ 6[3,3] ＞ 6 ＞ 成功" [⟨3, 6⟩, ⟨3, 6⟩] &&
  check chars!"2D6<7" chars!"DiceBot : (2D6<7) ＞ 7[3,4] ＞ 7 ＞ 失敗" [⟨3, 6⟩, ⟨4, 6⟩] &&
  check chars!"2D6>7" chars!"DiceBot : (2D6>7) ＞ 8[3,5] ＞ 8 ＞ 成功" [⟨3, 6⟩, ⟨5, 6⟩] &&
  check chars!"2D6>7" chars!"DiceBot : (2D6>7) ＞ 7[3,4] ＞ 7 ＞ 失敗" [⟨3, 6⟩, ⟨4, 6⟩] &&
  check chars!"2D6<=7" chars!"DiceBot : (2D6<=7) ＞ 7[3,4] ＞ 7 ＞ 成功" [⟨3, 6⟩, ⟨4, 6⟩] &&
  check chars!"2D6<=7" chars!"DiceBot : (2D6<=7) ＞ 8[3,5] ＞ 8 ＞ 失敗" [⟨3, 6⟩, ⟨5, 6⟩] &&
  check chars!"2D6>=7" chars!"DiceBot : (2D6>=7) ＞ 7[3,4] ＞ 7 ＞ 成功" [⟨3, 6⟩, ⟨4, 6⟩] &&
  check chars!"2D6>=7" chars!"DiceBot : (2D6>=7) ＞ 6[3,3] ＞ 6 ＞ 失敗" [⟨3, 6⟩, ⟨3, 6⟩] &&
  check chars!"-2D6<-7" chars!"DiceBot : (-2D6<-7) ＞ -8[3,5] ＞ -8 ＞ 成功" [⟨3, 6⟩, ⟨5, 6⟩] &&
  check chars!"-2D6<-7" chars!"DiceBot : (-2D6<-7) ＞ -7[3,4] ＞ -7 ＞ 失敗" [⟨3, 6⟩, ⟨4, 6⟩] &&
  check chars!"-2D6>-7" chars!"DiceBot : (-2D6>-7) ＞ -6[3,3] ＞ -6 ＞ 成功" [⟨3, 6⟩, ⟨3, 6⟩] &&
  check chars!"-2D6>-7" chars!"DiceBot : (-2D6>-7) ＞ -7[3,4] ＞ -7 ＞ 失敗" [⟨3, 6⟩, ⟨4, 6⟩]) = true := by decide +kernel

example : (
  check chars!"-2D6<=-7" chars!"DiceBot : (-2D6<=-7) ＞ -7[3,4] ＞ -7 ＞ 成功" [⟨3, 6⟩, ⟨4, 6⟩] &&
  check chars!"-2D6<=-7" chars!"DiceBot : (-2D6<=-7) ＞ -6[3,3] ＞ -6 ＞ 失敗" [⟨3, 6⟩, ⟨3, 6⟩] &&
  check chars!"-2D6>=-7" chars!"DiceBot : (-2D6>=-7) ＞ -7[3,4] ＞ -7 ＞ 成功" [⟨3, 6⟩, ⟨4, 6⟩] &&
  check chars!"-2D6>=-7" chars!"DiceBot : (-2D6>=-7) ＞ -8[3,5] ＞ -8 ＞ 失敗" [⟨3, 6⟩, ⟨5, 6⟩]) = true := by decide +kernel

/-- pkg/dicebot/gamesystem/basic/testdata/d_roll_expr.txt (36 cases) -/
example : (
  check chars!"2D6" chars!"DiceBot : (2D6) ＞ 8[5,3] ＞ 8" [⟨5, 6⟩, ⟨3, 6⟩] &&
  check chars!"2D4" chars!"DiceBot : (2D4) ＞ 3[1,2] ＞ 3" [⟨1, 4⟩, ⟨2, 4⟩] &&
  check chars!"2D6+1" chars!"DiceBot : (2D6+1) ＞ 8[2,6]+1 ＞ 9" [⟨2, 6⟩, ⟨6, 6⟩] &&
  check chars!"1+2D6" chars!"DiceBot : (1+2D6) ＞ 1+7[4,3] ＞ 8" [⟨4, 6⟩, ⟨3, 6⟩] &&
  check chars!"2d6+1-1-2-3-4" chars!"DiceBot : (2D6+1-1-2-3-4) ＞ 7[1,6]+1-1-2-3-4 ＞ -2" [⟨1, 6⟩, ⟨6, 6⟩] &&
  check chars!"2D6+4D10" chars!"DiceBot : (2D6+4D10) ＞ 9[5,4]+21[1,9,7,4] ＞ 30" [⟨5, 6⟩, ⟨4, 6⟩, ⟨1, 10⟩, ⟨9, 10⟩, ⟨7, 10⟩, ⟨4, 10⟩] &&
  check chars!"2d6*3" chars!"DiceBot : (2D6*3) ＞ 6[2,4]*3 ＞ 18" [⟨2, 6⟩, ⟨4, 6⟩] &&
  check chars!"2d10+3-4" chars!"DiceBot : (2D10+3-4) ＞ 8[3,5]+3-4 ＞ 7" [⟨3, 10⟩, ⟨5, 10⟩] &&
  check chars!"2d10+3*4" chars!"DiceBot : (2D10+3*4) ＞ 8[3,5]+3*4 ＞ 20" [⟨3, 10⟩, ⟨5, 10⟩] &&
  check chars!"2d6*3-1d6+1" chars!"DiceBot : (2D6*3-1D6+1) ＞ 8[6,2]*3-3[3]+1 ＞ 22" [⟨6, 6⟩, ⟨2, 6⟩, ⟨3, 6⟩] &&
  check chars!"(2+3)d6-1+3d6+2" chars!"DiceBot : (5D6-1+3D6+2) ＞ 17[2,3,1,5,6]-1+13[5,4,4]+2 ＞ 31" [⟨2, 6⟩, ⟨3, 6⟩, ⟨1, 6⟩, ⟨5, 6⟩, ⟨6, 6⟩, ⟨5, 6⟩, ⟨4, 6⟩, ⟨4, 6⟩] &&
  check chars!"(2*3-4)d6-1d4+1" chars!"DiceBot : (2D6-1D4+1) ＞ 11[6,5]-2[2]+1 ＞ 10" [⟨6, 6⟩, ⟨5, 6⟩, ⟨2, 4⟩] &&
  check chars!"((2+3)*4/3)d6*2+5" chars!"DiceBot : (6D6*2+5) ＞ 24[6,5,6,2,1,4]*2+5 ＞ 53" [⟨6, 6⟩, ⟨5, 6⟩, ⟨6, 6⟩, ⟨2, 6⟩, ⟨1, 6⟩, ⟨4, 6⟩] &&
  check chars!"1D6/2" chars!"DiceBot : (1D6/2) ＞ 1[1]/2 ＞ 0" [⟨1, 6⟩] &&
  check chars!"3D6/2" chars!"DiceBot : (3D6/2) ＞ 7[1,2,4]/2 ＞ 3" [⟨1, 6⟩, ⟨2, 6⟩, ⟨4, 6⟩] &&
  check chars!"3D6/2+1D6" chars!"DiceBot : (3D6/2+1D6) ＞ 7[1,2,4]/2+5[5] ＞ 8" [⟨1, 6⟩, ⟨2, 6⟩, ⟨4, 6⟩, ⟨5, 6⟩] &&
  check chars!"3D6+1D6/2" chars!"DiceBot : (3D6+1D6/2) ＞ 7[1,2,4]+5[5]/2 ＞ 9" [⟨1, 6⟩, ⟨2, 6⟩, ⟨4, 6⟩, ⟨5, 6⟩] &&
  check chars!"3D6+1D6/2U" chars!"DiceBot : (3D6+1D6/2U) ＞ 7[1,2,4]+5[5]/2U ＞ 10" [⟨1, 6⟩, ⟨2, 6⟩, ⟨4, 6⟩, ⟨5, 6⟩] &&
  check chars!"5D6/10" chars!"DiceBot : (5D6/10) ＞ 29[6,6,6,6,5]/10 ＞ 2" [⟨6, 6⟩, ⟨6, 6⟩, ⟨6, 6⟩, ⟨6, 6⟩, ⟨5, 6⟩] &&
  check chars!"3D6/2U" chars!"DiceBot : (3D6/2U) ＞ 7[1,2,4]/2U ＞ 4" [⟨1, 6⟩, ⟨2, 6⟩, ⟨4, 6⟩]) = true := by decide +kernel

example : (
  check chars!"5D6/10u" chars!"DiceBot : (5D6/10U) ＞ 21[6,6,6,2,1]/10U ＞ 3" [⟨6, 6⟩, ⟨6, 6⟩, ⟨6, 6⟩, ⟨2, 6⟩, ⟨1, 6⟩] &&
  check chars!"1D100/10R" chars!"DiceBot : (1D100/10R) ＞ 55[55]/10R ＞ 6" [⟨55, 100⟩] &&
  check chars!"1D100/10r" chars!"DiceBot : (1D100/10R) ＞ 54[54]/10R ＞ 5" [⟨54, 100⟩] &&
  check chars!"[1...5]D6" chars!"DiceBot : (4D6) ＞ 15[5,3,4,3] ＞ 15" [⟨4, 5⟩, ⟨5, 6⟩, ⟨3, 6⟩, ⟨4, 6⟩, ⟨3, 6⟩] &&
  check chars!"([2...4]+2)D10" chars!"DiceBot : (6D10) ＞ 29[8,7,2,1,6,5] ＞ 29" [⟨3, 3⟩, ⟨8, 10⟩, ⟨7, 10⟩, ⟨2, 10⟩, ⟨1, 10⟩, ⟨6, 10⟩, ⟨5, 10⟩] &&
  check chars!"[(2+3)...8]D6" chars!"DiceBot : (5D6) ＞ 14[1,2,4,6,1] ＞ 14" [⟨1, 4⟩, ⟨1, 6⟩, ⟨2, 6⟩, ⟨4, 6⟩, ⟨6, 6⟩, ⟨1, 6⟩] &&
  check chars!"[5...(7+1)]D6" chars!"DiceBot : (5D6) ＞ 14[1,2,4,6,1] ＞ 14" [⟨1, 4⟩, ⟨1, 6⟩, ⟨2, 6⟩, ⟨4, 6⟩, ⟨6, 6⟩, ⟨1, 6⟩] &&
  check chars!"2d[1...5]" chars!"DiceBot : (2D2) ＞ 3[1,2] ＞ 3" [⟨2, 5⟩, ⟨1, 2⟩, ⟨2, 2⟩] &&
  check chars!"2d([2...4]+2)" chars!"DiceBot : (2D5) ＞ 7[4,3] ＞ 7" [⟨2, 3⟩, ⟨4, 5⟩, ⟨3, 5⟩] &&
  check chars!"2d[(2+3)...8]" chars!"DiceBot : (2D8) ＞ 10[3,7] ＞ 10" [⟨4, 4⟩, ⟨3, 8⟩, ⟨7, 8⟩] &&
  check chars!"2d[5...(7+1)]" chars!"DiceBot : (2D8) ＞ 10[3,7] ＞ 10" [⟨4, 4⟩, ⟨3, 8⟩, ⟨7, 8⟩] &&
  check chars!"[1...5]d(2*3)" chars!"DiceBot : (5D6) ＞ 20[3,5,1,5,6] ＞ 20" [⟨5, 5⟩, ⟨3, 6⟩, ⟨5, 6⟩, ⟨1, 6⟩, ⟨5, 6⟩, ⟨6, 6⟩] &&
  check chars!"(1+1)d[1...5]" chars!"DiceBot : (2D4) ＞ 7[3,4] ＞ 7" [⟨4, 5⟩, ⟨3, 4⟩, ⟨4, 4⟩] &&
  check chars!"([1...4]+1)d([2...4]+2)-1" chars!"DiceBot : (3D6-1) ＞ 14[5,5,4]-1 ＞ 13" [⟨2, 4⟩, ⟨3, 3⟩, ⟨5, 6⟩, ⟨5, 6⟩, ⟨4, 6⟩] &&
  check chars!"1D6/0" chars!"" [⟨1, 6⟩] &&
  check chars!"1D6/3x" chars!"" []) = true := by decide +kernel

/-- pkg/dicebot/gamesystem/basic/testdata/r_roll_comp.txt (25 cases) -/
example : (
  check chars!"2r6>=1" chars!"DiceBot : (2R6[1]>=1) ＞ 振り足し目標値として2以上の整数を指定してください" [] &&
  check chars!"2r6=3" chars!"DiceBot : (2R6[3]=3) ＞ 3,1 + 2 ＞ 成功数1" [⟨3, 6⟩, ⟨1, 6⟩, ⟨2, 6⟩] &&
  check chars!"2r6=3" chars!"DiceBot : (2R6[3]=3) ＞ 6,1 + 3 + 1 ＞ 成功数1" [⟨6, 6⟩, ⟨1, 6⟩, ⟨3, 6⟩, ⟨1, 6⟩] &&
  check chars!"2R6<>3" chars!"DiceBot : (2R6[3]<>3) ＞ 3,1 + 2 ＞ 成功数2" [⟨3, 6⟩, ⟨1, 6⟩, ⟨2, 6⟩] &&
  check chars!"2R6<>3" chars!"DiceBot : (2R6[3]<>3) ＞ 6,1 + 3 + 1 ＞ 成功数3" [⟨6, 6⟩, ⟨1, 6⟩, ⟨3, 6⟩, ⟨1, 6⟩] &&
  check chars!"2R6>3" chars!"DiceBot : (2R6[3]>3) ＞ 3,1 + 2 ＞ 成功数0" [⟨3, 6⟩, ⟨1, 6⟩, ⟨2, 6⟩] &&
  check chars!"2R6>3" chars!"DiceBot : (2R6[3]>3) ＞ 6,1 + 3 + 1 ＞ 成功数1" [⟨6, 6⟩, ⟨1, 6⟩, ⟨3, 6⟩, ⟨1, 6⟩] &&
  check chars!"2R6<3" chars!"DiceBot : (2R6[3]<3) ＞ 3,1 + 2 ＞ 成功数2" [⟨3, 6⟩, ⟨1, 6⟩, ⟨2, 6⟩] &&
  check chars!"2R6<3" chars!"DiceBot : (2R6[3]<3) ＞ 6,1 + 3 + 1 ＞ 成功数2" [⟨6, 6⟩, ⟨1, 6⟩, ⟨3, 6⟩, ⟨1, 6⟩] &&
  check chars!"2R6>=3" chars!"DiceBot : (2R6[3]>=3) ＞ 3,1 + 2 ＞ 成功数1" [⟨3, 6⟩, ⟨1, 6⟩, ⟨2, 6⟩] &&
  check chars!"2R6>=3" chars!"DiceBot : (2R6[3]>=3) ＞ 6,1 + 3 + 1 ＞ 成功数2" [⟨6, 6⟩, ⟨1, 6⟩, ⟨3, 6⟩, ⟨1, 6⟩] &&
  check chars!"2R6<=3" chars!"DiceBot : (2R6[3]<=3) ＞ 3,1 + 2 ＞ 成功数3" [⟨3, 6⟩, ⟨1, 6⟩, ⟨2, 6⟩] &&
  check chars!"2R6<=3" chars!"DiceBot : (2R6[3]<=3) ＞ 6,1 + 3 + 1 ＞ 成功数3" [⟨6, 6⟩, ⟨1, 6⟩, ⟨3, 6⟩, ⟨1, 6⟩] &&
  check chars!"12R6>=6" chars!"DiceBot : (12R6[6]>=6) ＞ 4,1,5,4,3,2,5,1,6,3,2,5 + 5 ＞ 成功数1" [⟨4, 6⟩, ⟨1, 6⟩, ⟨5, 6⟩, ⟨4, 6⟩, ⟨3, 6⟩, ⟨2, 6⟩, ⟨5, 6⟩, ⟨1, 6⟩, ⟨6, 6⟩, ⟨3, 6⟩, ⟨2, 6⟩, ⟨5, 6⟩, ⟨5, 6⟩] &&
  check chars!"12R6>=6" chars!"DiceBot : (12R6[6]>=6) ＞ 6,1,2,2,2,1,5,5,1,5,2,6 + 4,5 ＞ 成功数2" [⟨6, 6⟩, ⟨1, 6⟩, ⟨2, 6⟩, ⟨2, 6⟩, ⟨2, 6⟩, ⟨1, 6⟩, ⟨5, 6⟩, ⟨5, 6⟩, ⟨1, 6⟩, ⟨5, 6⟩, ⟨2, 6⟩, ⟨6, 6⟩, ⟨4, 6⟩, ⟨5, 6⟩] &&
  check chars!"12R6>=6" chars!"DiceBot : (12R6[6]>=6) ＞ 2,4,4,5,4,1,2,6,6,6,1,4 + 6,4,6 + 3,4 ＞ 成功数5" [⟨2, 6⟩, ⟨4, 6⟩, ⟨4, 6⟩, ⟨5, 6⟩, ⟨4, 6⟩, ⟨1, 6⟩, ⟨2, 6⟩, ⟨6, 6⟩, ⟨6, 6⟩, ⟨6, 6⟩, ⟨1, 6⟩, ⟨4, 6⟩, ⟨6, 6⟩, ⟨4, 6⟩, ⟨6, 6⟩, ⟨3, 6⟩, ⟨4, 6⟩] &&
  check chars!"12R6>=6" chars!"DiceBot : (12R6[6]>=6) ＞ 2,5,4,5,3,1,3,4,2,2,4,5 ＞ 成功数0" [⟨2, 6⟩, ⟨5, 6⟩, ⟨4, 6⟩, ⟨5, 6⟩, ⟨3, 6⟩, ⟨1, 6⟩, ⟨3, 6⟩, ⟨4, 6⟩, ⟨2, 6⟩, ⟨2, 6⟩, ⟨4, 6⟩, ⟨5, 6⟩] &&
  check chars!"12R6>=6" chars!"DiceBot : (12R6[6]>=6) ＞ 5,3,5,3,1,1,6,3,2,2,5,5 + 6 + 4 ＞ 成功数2" [⟨5, 6⟩, ⟨3, 6⟩, ⟨5, 6⟩, ⟨3, 6⟩, ⟨1, 6⟩, ⟨1, 6⟩, ⟨6, 6⟩, ⟨3, 6⟩, ⟨2, 6⟩, ⟨2, 6⟩, ⟨5, 6⟩, ⟨5, 6⟩, ⟨6, 6⟩, ⟨4, 6⟩] &&
  check chars!"12R6>=6" chars!"DiceBot : (12R6[6]>=6) ＞ 4,4,2,1,5,6,5,1,1,4,4,6 + 3,6 + 2 ＞ 成功数3" [⟨4, 6⟩, ⟨4, 6⟩, ⟨2, 6⟩, ⟨1, 6⟩, ⟨5, 6⟩, ⟨6, 6⟩, ⟨5, 6⟩, ⟨1, 6⟩, ⟨1, 6⟩, ⟨4, 6⟩, ⟨4, 6⟩, ⟨6, 6⟩, ⟨3, 6⟩, ⟨6, 6⟩, ⟨2, 6⟩] &&
  check chars!"12R6>=6" chars!"DiceBot : (12R6[6]>=6) ＞ 2,1,2,5,2,3,1,3,4,4,4,5 ＞ 成功数0" [⟨2, 6⟩, ⟨1, 6⟩, ⟨2, 6⟩, ⟨5, 6⟩, ⟨2, 6⟩, ⟨3, 6⟩, ⟨1, 6⟩, ⟨3, 6⟩, ⟨4, 6⟩, ⟨4, 6⟩, ⟨4, 6⟩, ⟨5, 6⟩]) = true := by decide +kernel

example : (
  check chars!"12R6>=6" chars!"DiceBot : (12R6[6]>=6) ＞ 1,2,3,4,1,1,2,3,6,4,1,4 + 2 ＞ 成功数1" [⟨1, 6⟩, ⟨2, 6⟩, ⟨3, 6⟩, ⟨4, 6⟩, ⟨1, 6⟩, ⟨1, 6⟩, ⟨2, 6⟩, ⟨3, 6⟩, ⟨6, 6⟩, ⟨4, 6⟩, ⟨1, 6⟩, ⟨4, 6⟩, ⟨2, 6⟩] &&
  check chars!"12R6>=6" chars!"DiceBot : (12R6[6]>=6) ＞ 4,3,6,2,2,1,3,5,1,3,2,1 + 6 + 2 ＞ 成功数2" [⟨4, 6⟩, ⟨3, 6⟩, ⟨6, 6⟩, ⟨2, 6⟩, ⟨2, 6⟩, ⟨1, 6⟩, ⟨3, 6⟩, ⟨5, 6⟩, ⟨1, 6⟩, ⟨3, 6⟩, ⟨2, 6⟩, ⟨1, 6⟩, ⟨6, 6⟩, ⟨2, 6⟩] &&
  check chars!"12R6>=6" chars!"DiceBot : (12R6[6]>=6) ＞ 6,6,3,1,4,2,4,5,4,3,6,6 + 4,4,3,4 ＞ 成功数4" [⟨6, 6⟩, ⟨6, 6⟩, ⟨3, 6⟩, ⟨1, 6⟩, ⟨4, 6⟩, ⟨2, 6⟩, ⟨4, 6⟩, ⟨5, 6⟩, ⟨4, 6⟩, ⟨3, 6⟩, ⟨6, 6⟩, ⟨6, 6⟩, ⟨4, 6⟩, ⟨4, 6⟩, ⟨3, 6⟩, ⟨4, 6⟩] &&
  check chars!"2R4+2R6>=4" chars!"DiceBot : (2R4+2R6[4]>=4) ＞ 4,3 + 3,5 + 1 + 2 ＞ 成功数2" [⟨4, 4⟩, ⟨3, 4⟩, ⟨3, 6⟩, ⟨5, 6⟩, ⟨1, 4⟩, ⟨2, 6⟩] &&
  check chars!"2R6[3]>=4" chars!"DiceBot : (2R6[3]>=4) ＞ 6,1 + 3 + 1 ＞ 成功数1" [⟨6, 6⟩, ⟨1, 6⟩, ⟨3, 6⟩, ⟨1, 6⟩]) = true := by decide +kernel

/-- pkg/dicebot/gamesystem/basic/testdata/r_roll_list.txt (8 cases) -/
example : (
  check chars!"2R6" chars!"DiceBot : (2R6) ＞ 2R6>=5 あるいは 2R6[5] のように振り足し目標値を指定してください" [] &&
  check chars!"2r6[1]" chars!"DiceBot : (2R6[1]) ＞ 振り足し目標値として2以上の整数を指定してください" [] &&
  check chars!"2R6[3]" chars!"DiceBot : (2R6[3]) ＞ 3,1 + 2" [⟨3, 6⟩, ⟨1, 6⟩, ⟨2, 6⟩] &&
  check chars!"2R6[3]" chars!"DiceBot : (2R6[3]) ＞ 6,1 + 3 + 1" [⟨6, 6⟩, ⟨1, 6⟩, ⟨3, 6⟩, ⟨1, 6⟩] &&
  check chars!"12R6[6]" chars!"DiceBot : (12R6[6]) ＞ 4,1,5,4,3,2,5,1,6,3,2,5 + 5" [⟨4, 6⟩, ⟨1, 6⟩, ⟨5, 6⟩, ⟨4, 6⟩, ⟨3, 6⟩, ⟨2, 6⟩, ⟨5, 6⟩, ⟨1, 6⟩, ⟨6, 6⟩, ⟨3, 6⟩, ⟨2, 6⟩, ⟨5, 6⟩, ⟨5, 6⟩] &&
  check chars!"12R6[6]" chars!"DiceBot : (12R6[6]) ＞ 2,4,4,5,4,1,2,6,6,6,1,4 + 6,4,6 + 3,4" [⟨2, 6⟩, ⟨4, 6⟩, ⟨4, 6⟩, ⟨5, 6⟩, ⟨4, 6⟩, ⟨1, 6⟩, ⟨2, 6⟩, ⟨6, 6⟩, ⟨6, 6⟩, ⟨6, 6⟩, ⟨1, 6⟩, ⟨4, 6⟩, ⟨6, 6⟩, ⟨4, 6⟩, ⟨6, 6⟩, ⟨3, 6⟩, ⟨4, 6⟩] &&
  check chars!"12R6[6]" chars!"DiceBot : (12R6[6]) ＞ 2,5,4,5,3,1,3,4,2,2,4,5" [⟨2, 6⟩, ⟨5, 6⟩, ⟨4, 6⟩, ⟨5, 6⟩, ⟨3, 6⟩, ⟨1, 6⟩, ⟨3, 6⟩, ⟨4, 6⟩, ⟨2, 6⟩, ⟨2, 6⟩, ⟨4, 6⟩, ⟨5, 6⟩] &&
  check chars!"2R4+2R6[4]" chars!"DiceBot : (2R4+2R6[4]) ＞ 4,3 + 3,5 + 1 + 2" [⟨4, 4⟩, ⟨3, 4⟩, ⟨3, 6⟩, ⟨5, 6⟩, ⟨1, 4⟩, ⟨2, 6⟩]) = true := by decide +kernel

/-- pkg/dicebot/gamesystem/basic/testdata/secret_roll.txt (6 cases) -/
example : (
  check chars!"S2d6" chars!"DiceBot : (2D6) ＞ 5[4,1] ＞ 5###secret dice###" [⟨4, 6⟩, ⟨1, 6⟩] &&
  check chars!"s2d6" chars!"DiceBot : (2D6) ＞ 5[4,1] ＞ 5###secret dice###" [⟨4, 6⟩, ⟨1, 6⟩] &&
  check chars!"S1U6[3]" chars!"DiceBot : (1U6[3]) ＞ 5[3,2] ＞ 5/5 (最大/合計)###secret dice###" [⟨3, 6⟩, ⟨2, 6⟩] &&
  check chars!"S3B6>=4" chars!"DiceBot : (3B6>=4) ＞ 5,2,4 ＞ 成功数2###secret dice###" [⟨5, 6⟩, ⟨2, 6⟩, ⟨4, 6⟩] &&
  check chars!"Schoice[abc2,def3]" chars!"DiceBot : (CHOICE[abc2,def3]) ＞ def3###secret dice###" [⟨2, 2⟩] &&
  check chars!"S2R6[3]" chars!"DiceBot : (2R6[3]) ＞ 3,2 + 1###secret dice###" [⟨3, 6⟩, ⟨2, 6⟩, ⟨1, 6⟩]) = true := by decide +kernel

/-- pkg/dicebot/gamesystem/basic/testdata/u_roll_comp.txt (32 cases) -/
example : (
  check chars!"3U6>=7" chars!"DiceBot : (3U6>=7) ＞ 2U6[5] のように振り足し目標値を指定してください" [] &&
  check chars!"3U6[1]>=7" chars!"DiceBot : (3U6[1]>=7) ＞ 振り足し目標値として2以上の整数を指定してください" [] &&
  check chars!"3u6[6]=7" chars!"DiceBot : (3U6[6]=7) ＞ 11[6,5],7[6,1],5 ＞ 成功数1" [⟨6, 6⟩, ⟨5, 6⟩, ⟨6, 6⟩, ⟨1, 6⟩, ⟨5, 6⟩] &&
  check chars!"3u6[6]=7" chars!"DiceBot : (3U6[6]=7) ＞ 11[6,5],7[6,1],7[6,1] ＞ 成功数2" [⟨6, 6⟩, ⟨5, 6⟩, ⟨6, 6⟩, ⟨1, 6⟩, ⟨6, 6⟩, ⟨1, 6⟩] &&
  check chars!"3u6[6]-4=7" chars!"DiceBot : (3U6[6]-4=7) ＞ 11[6,5],7[6,1],5-4 ＞ 成功数1" [⟨6, 6⟩, ⟨5, 6⟩, ⟨6, 6⟩, ⟨1, 6⟩, ⟨5, 6⟩] &&
  check chars!"3u6[6]<>7" chars!"DiceBot : (3U6[6]<>7) ＞ 11[6,5],7[6,1],5 ＞ 成功数2" [⟨6, 6⟩, ⟨5, 6⟩, ⟨6, 6⟩, ⟨1, 6⟩, ⟨5, 6⟩] &&
  check chars!"3u6[6]<>7" chars!"DiceBot : (3U6[6]<>7) ＞ 11[6,5],7[6,1],7[6,1] ＞ 成功数1" [⟨6, 6⟩, ⟨5, 6⟩, ⟨6, 6⟩, ⟨1, 6⟩, ⟨6, 6⟩, ⟨1, 6⟩] &&
  check chars!"3u6[6]+1<>7" chars!"DiceBot : (3U6[6]+1<>7) ＞ 11[6,5],7[6,1],5+1 ＞ 成功数3" [⟨6, 6⟩, ⟨5, 6⟩, ⟨6, 6⟩, ⟨1, 6⟩, ⟨5, 6⟩] &&
  check chars!"3u6[6]>6" chars!"DiceBot : (3U6[6]>6) ＞ 11[6,5],7[6,1],5 ＞ 成功数2" [⟨6, 6⟩, ⟨5, 6⟩, ⟨6, 6⟩, ⟨1, 6⟩, ⟨5, 6⟩] &&
  check chars!"3u6[6]>6" chars!"DiceBot : (3U6[6]>6) ＞ 11[6,5],7[6,1],7[6,1] ＞ 成功数3" [⟨6, 6⟩, ⟨5, 6⟩, ⟨6, 6⟩, ⟨1, 6⟩, ⟨6, 6⟩, ⟨1, 6⟩] &&
  check chars!"3u6[6]-1>6" chars!"DiceBot : (3U6[6]-1>6) ＞ 11[6,5],7[6,1],5-1 ＞ 成功数1" [⟨6, 6⟩, ⟨5, 6⟩, ⟨6, 6⟩, ⟨1, 6⟩, ⟨5, 6⟩] &&
  check chars!"3u6[6]<6" chars!"DiceBot : (3U6[6]<6) ＞ 11[6,5],7[6,1],5 ＞ 成功数1" [⟨6, 6⟩, ⟨5, 6⟩, ⟨6, 6⟩, ⟨1, 6⟩, ⟨5, 6⟩] &&
  check chars!"3u6[6]<6" chars!"DiceBot : (3U6[6]<6) ＞ 11[6,5],7[6,1],7[6,1] ＞ 成功数0" [⟨6, 6⟩, ⟨5, 6⟩, ⟨6, 6⟩, ⟨1, 6⟩, ⟨6, 6⟩, ⟨1, 6⟩] &&
  check chars!"3u6[6]-2<6" chars!"DiceBot : (3U6[6]-2<6) ＞ 11[6,5],7[6,1],5-2 ＞ 成功数2" [⟨6, 6⟩, ⟨5, 6⟩, ⟨6, 6⟩, ⟨1, 6⟩, ⟨5, 6⟩] &&
  check chars!"3u6[6]>=7" chars!"DiceBot : (3U6[6]>=7) ＞ 11[6,5],7[6,1],5 ＞ 成功数2" [⟨6, 6⟩, ⟨5, 6⟩, ⟨6, 6⟩, ⟨1, 6⟩, ⟨5, 6⟩] &&
  check chars!"3u6[6]>=7" chars!"DiceBot : (3U6[6]>=7) ＞ 11[6,5],7[6,1],7[6,1] ＞ 成功数3" [⟨6, 6⟩, ⟨5, 6⟩, ⟨6, 6⟩, ⟨1, 6⟩, ⟨6, 6⟩, ⟨1, 6⟩] &&
  check chars!"3u6[6]-1>=7" chars!"DiceBot : (3U6[6]-1>=7) ＞ 11[6,5],7[6,1],5-1 ＞ 成功数1" [⟨6, 6⟩, ⟨5, 6⟩, ⟨6, 6⟩, ⟨1, 6⟩, ⟨5, 6⟩] &&
  check chars!"3u6[6]<=7" chars!"DiceBot : (3U6[6]<=7) ＞ 11[6,5],7[6,1],5 ＞ 成功数2" [⟨6, 6⟩, ⟨5, 6⟩, ⟨6, 6⟩, ⟨1, 6⟩, ⟨5, 6⟩] &&
  check chars!"3u6[6]<=7" chars!"DiceBot : (3U6[6]<=7) ＞ 11[6,5],7[6,1],7[6,1] ＞ 成功数2" [⟨6, 6⟩, ⟨5, 6⟩, ⟨6, 6⟩, ⟨1, 6⟩, ⟨6, 6⟩, ⟨1, 6⟩] &&
  check chars!"3u6[6]-4<=7" chars!"DiceBot : (3U6[6]-4<=7) ＞ 11[6,5],7[6,1],5-4 ＞ 成功数3" [⟨6, 6⟩, ⟨5, 6⟩, ⟨6, 6⟩, ⟨1, 6⟩, ⟨5, 6⟩]) = true := by decide +kernel

example : (
  check chars!"3u6+5u6[6]>=7" chars!"DiceBot : (3U6+5U6[6]>=7) ＞ 3,5,3,10[6,4],1,15[6,6,3],5,1 ＞ 成功数2" [⟨3, 6⟩, ⟨5, 6⟩, ⟨3, 6⟩, ⟨6, 6⟩, ⟨4, 6⟩, ⟨1, 6⟩, ⟨6, 6⟩, ⟨6, 6⟩, ⟨3, 6⟩, ⟨5, 6⟩, ⟨1, 6⟩] &&
  check chars!"(5+6)u10[10]+5>=8" chars!"DiceBot : (11U10[10]+5>=8) ＞ 3,2,7,4,7,5,4,4,7,16[10,6],1+5 ＞ 成功数9" [⟨3, 10⟩, ⟨2, 10⟩, ⟨7, 10⟩, ⟨4, 10⟩, ⟨7, 10⟩, ⟨5, 10⟩, ⟨4, 10⟩, ⟨4, 10⟩, ⟨7, 10⟩, ⟨10, 10⟩, ⟨6, 10⟩, ⟨1, 10⟩] &&
  check chars!"6U6[4]>=10" chars!"DiceBot : (6U6[4]>=10) ＞ 2,7[5,2],1,11[4,6,1],8[5,3],3 ＞ 成功数1" [⟨2, 6⟩, ⟨5, 6⟩, ⟨2, 6⟩, ⟨1, 6⟩, ⟨4, 6⟩, ⟨6, 6⟩, ⟨1, 6⟩, ⟨5, 6⟩, ⟨3, 6⟩, ⟨3, 6⟩] &&
  check chars!"6U6[4]>=10" chars!"DiceBot : (6U6[4]>=10) ＞ 7[5,2],14[6,6,2],1,1,3,9[6,3] ＞ 成功数1" [⟨5, 6⟩, ⟨2, 6⟩, ⟨6, 6⟩, ⟨6, 6⟩, ⟨2, 6⟩, ⟨1, 6⟩, ⟨1, 6⟩, ⟨3, 6⟩, ⟨6, 6⟩, ⟨3, 6⟩] &&
  check chars!"6U6[4]>=10" chars!"DiceBot : (6U6[4]>=10) ＞ 7[4,3],1,1,23[4,6,6,4,3],1,14[6,5,3] ＞ 成功数2" [⟨4, 6⟩, ⟨3, 6⟩, ⟨1, 6⟩, ⟨1, 6⟩, ⟨4, 6⟩, ⟨6, 6⟩, ⟨6, 6⟩, ⟨4, 6⟩, ⟨3, 6⟩, ⟨1, 6⟩, ⟨6, 6⟩, ⟨5, 6⟩, ⟨3, 6⟩] &&
  check chars!"6U6[4]>=10" chars!"DiceBot : (6U6[4]>=10) ＞ 2,3,7[5,2],8[5,3],2,14[6,6,2] ＞ 成功数1" [⟨2, 6⟩, ⟨3, 6⟩, ⟨5, 6⟩, ⟨2, 6⟩, ⟨5, 6⟩, ⟨3, 6⟩, ⟨2, 6⟩, ⟨6, 6⟩, ⟨6, 6⟩, ⟨2, 6⟩] &&
  check chars!"6U6[4]>=10" chars!"DiceBot : (6U6[4]>=10) ＞ 13[6,4,3],16[4,6,4,2],7[5,2],8[6,2],18[6,5,4,3],12[5,5,2] ＞ 成功数4" [⟨6, 6⟩, ⟨4, 6⟩, ⟨3, 6⟩, ⟨4, 6⟩, ⟨6, 6⟩, ⟨4, 6⟩, ⟨2, 6⟩, ⟨5, 6⟩, ⟨2, 6⟩, ⟨6, 6⟩, ⟨2, 6⟩, ⟨6, 6⟩, ⟨5, 6⟩, ⟨4, 6⟩, ⟨3, 6⟩, ⟨5, 6⟩, ⟨5, 6⟩, ⟨2, 6⟩] &&
  check chars!"6U6[4]>=10" chars!"DiceBot : (6U6[4]>=10) ＞ 1,10[5,4,1],8[5,3],11[5,5,1],2,8[6,2] ＞ 成功数2" [⟨1, 6⟩, ⟨5, 6⟩, ⟨4, 6⟩, ⟨1, 6⟩, ⟨5, 6⟩, ⟨3, 6⟩, ⟨5, 6⟩, ⟨5, 6⟩, ⟨1, 6⟩, ⟨2, 6⟩, ⟨6, 6⟩, ⟨2, 6⟩] &&
  check chars!"6U6[4]>=10" chars!"DiceBot : (6U6[4]>=10) ＞ 1,3,2,6[4,2],1,11[6,4,1] ＞ 成功数1" [⟨1, 6⟩, ⟨3, 6⟩, ⟨2, 6⟩, ⟨4, 6⟩, ⟨2, 6⟩, ⟨1, 6⟩, ⟨6, 6⟩, ⟨4, 6⟩, ⟨1, 6⟩] &&
  check chars!"6U6[4]>=10" chars!"DiceBot : (6U6[4]>=10) ＞ 3,1,12[5,4,3],1,13[6,4,3],13[5,5,3] ＞ 成功数3" [⟨3, 6⟩, ⟨1, 6⟩, ⟨5, 6⟩, ⟨4, 6⟩, ⟨3, 6⟩, ⟨1, 6⟩, ⟨6, 6⟩, ⟨4, 6⟩, ⟨3, 6⟩, ⟨5, 6⟩, ⟨5, 6⟩, ⟨3, 6⟩] &&
  check chars!"6U6[4]>=10" chars!"DiceBot : (6U6[4]>=10) ＞ 11[5,4,2],3,6[4,2],3,7[5,2],1 ＞ 成功数1" [⟨5, 6⟩, ⟨4, 6⟩, ⟨2, 6⟩, ⟨3, 6⟩, ⟨4, 6⟩, ⟨2, 6⟩, ⟨3, 6⟩, ⟨5, 6⟩, ⟨2, 6⟩, ⟨1, 6⟩] &&
  check chars!"6U6[4]>=10" chars!"DiceBot : (6U6[4]>=10) ＞ 13[5,5,3],3,2,15[6,6,3],5[4,1],3 ＞ 成功数2" [⟨5, 6⟩, ⟨5, 6⟩, ⟨3, 6⟩, ⟨3, 6⟩, ⟨2, 6⟩, ⟨6, 6⟩, ⟨6, 6⟩, ⟨3, 6⟩, ⟨4, 6⟩, ⟨1, 6⟩, ⟨3, 6⟩]) = true := by decide +kernel

/-- pkg/dicebot/gamesystem/basic/testdata/u_roll_expr.txt (17 cases) -/
example : (
  check chars!"3u6" chars!"DiceBot : (3U6) ＞ 2U6[5] のように振り足し目標値を指定してください" [] &&
  check chars!"3u6[1]" chars!"DiceBot : (3U6[1]) ＞ 振り足し目標値として2以上の整数を指定してください" [] &&
  check chars!"1U6[3]" chars!"DiceBot : (1U6[3]) ＞ 5[3,2] ＞ 5/5 (最大/合計)" [⟨3, 6⟩, ⟨2, 6⟩] &&
  check chars!"3u6[6]" chars!"DiceBot : (3U6[6]) ＞ 11[6,5],7[6,1],7[6,1] ＞ 11/25 (最大/合計)" [⟨6, 6⟩, ⟨5, 6⟩, ⟨6, 6⟩, ⟨1, 6⟩, ⟨6, 6⟩, ⟨1, 6⟩] &&
  check chars!"(1+2)u6[6]" chars!"DiceBot : (3U6[6]) ＞ 11[6,5],7[6,1],7[6,1] ＞ 11/25 (最大/合計)" [⟨6, 6⟩, ⟨5, 6⟩, ⟨6, 6⟩, ⟨1, 6⟩, ⟨6, 6⟩, ⟨1, 6⟩] &&
  check chars!"3u(2*3)[6]" chars!"DiceBot : (3U6[6]) ＞ 11[6,5],7[6,1],7[6,1] ＞ 11/25 (最大/合計)" [⟨6, 6⟩, ⟨5, 6⟩, ⟨6, 6⟩, ⟨1, 6⟩, ⟨6, 6⟩, ⟨1, 6⟩] &&
  check chars!"3u6[12/2]" chars!"DiceBot : (3U6[6]) ＞ 11[6,5],7[6,1],7[6,1] ＞ 11/25 (最大/合計)" [⟨6, 6⟩, ⟨5, 6⟩, ⟨6, 6⟩, ⟨1, 6⟩, ⟨6, 6⟩, ⟨1, 6⟩] &&
  check chars!"6U6[4]" chars!"DiceBot : (6U6[4]) ＞ 2,7[5,2],1,11[4,6,1],8[5,3],3 ＞ 11/32 (最大/合計)" [⟨2, 6⟩, ⟨5, 6⟩, ⟨2, 6⟩, ⟨1, 6⟩, ⟨4, 6⟩, ⟨6, 6⟩, ⟨1, 6⟩, ⟨5, 6⟩, ⟨3, 6⟩, ⟨3, 6⟩] &&
  check chars!"6U6[4]" chars!"DiceBot : (6U6[4]) ＞ 7[4,3],1,1,23[4,6,6,4,3],1,14[6,5,3] ＞ 23/47 (最大/合計)" [⟨4, 6⟩, ⟨3, 6⟩, ⟨1, 6⟩, ⟨1, 6⟩, ⟨4, 6⟩, ⟨6, 6⟩, ⟨6, 6⟩, ⟨4, 6⟩, ⟨3, 6⟩, ⟨1, 6⟩, ⟨6, 6⟩, ⟨5, 6⟩, ⟨3, 6⟩] &&
  check chars!"1U100[96]+3" chars!"DiceBot : (1U100[96]+3) ＞ 155[98,57]+3 ＞ 158/158 (最大/合計)" [⟨98, 100⟩, ⟨57, 100⟩] &&
  check chars!"3u6[5]" chars!"DiceBot : (3U6[5]) ＞ 7[5,2],4,4 ＞ 7/15 (最大/合計)" [⟨5, 6⟩, ⟨2, 6⟩, ⟨4, 6⟩, ⟨4, 6⟩] &&
  check chars!"3u6[5]+10" chars!"DiceBot : (3U6[5]+10) ＞ 7[5,2],4,4+10 ＞ 17/25 (最大/合計)" [⟨5, 6⟩, ⟨2, 6⟩, ⟨4, 6⟩, ⟨4, 6⟩] &&
  check chars!"3u6[5]-(-2-2*4)" chars!"DiceBot : (3U6[5]+10) ＞ 7[5,2],4,4+10 ＞ 17/25 (最大/合計)" [⟨5, 6⟩, ⟨2, 6⟩, ⟨4, 6⟩, ⟨4, 6⟩] &&
  check chars!"3u6[5]-10" chars!"DiceBot : (3U6[5]-10) ＞ 7[5,2],4,4-10 ＞ -3/5 (最大/合計)" [⟨5, 6⟩, ⟨2, 6⟩, ⟨4, 6⟩, ⟨4, 6⟩] &&
  check chars!"3u6[5]+(-2-2*4)" chars!"DiceBot : (3U6[5]-10) ＞ 7[5,2],4,4-10 ＞ -3/5 (最大/合計)" [⟨5, 6⟩, ⟨2, 6⟩, ⟨4, 6⟩, ⟨4, 6⟩] &&
  check chars!"3u6+5u6[6]" chars!"DiceBot : (3U6+5U6[6]) ＞ 3,5,3,10[6,4],1,15[6,6,3],5,1 ＞ 15/43 (最大/合計)" [⟨3, 6⟩, ⟨5, 6⟩, ⟨3, 6⟩, ⟨6, 6⟩, ⟨4, 6⟩, ⟨1, 6⟩, ⟨6, 6⟩, ⟨6, 6⟩, ⟨3, 6⟩, ⟨5, 6⟩, ⟨1, 6⟩] &&
  check chars!"(5+6)u10[10]+5" chars!"DiceBot : (11U10[10]+5) ＞ 3,2,7,4,7,5,4,4,7,16[10,6],1+5 ＞ 21/65 (最大/合計)" [⟨3, 10⟩, ⟨2, 10⟩, ⟨7, 10⟩, ⟨4, 10⟩, ⟨7, 10⟩, ⟨5, 10⟩, ⟨4, 10⟩, ⟨4, 10⟩, ⟨7, 10⟩, ⟨10, 10⟩, ⟨6, 10⟩, ⟨1, 10⟩]) = true := by decide +kernel

end GoBCDice.Conformance
