import Verif.BCDice

/-!
# Commands as bytes

A Go string is a sequence of bytes that need not be valid UTF-8, and the front ends pass on whatever
bytes they get.  The other modules take the text of a command to be a sequence of characters.  Here
`BCDice.ExecuteCommand` is modelled once more, on bytes; `Verif.Props.Bytes` proves that on the
bytes of a text it does what the other modules say, and what it does on other bytes.
-/

namespace GoBCDice

open Pigeon (Sym)

/-- A Go string, or a `[]byte`. -/
abbrev Bytes := List UInt8

/-- `utf8.EncodeRune` for each rune: `string(runes)`. -/
def encode (s : Str) : Bytes := s.flatMap String.utf8EncodeChar

/-- What a first byte from 0x80 on calls for (`first` and `acceptRanges` of unicode/utf8): the number
of bytes and the range of the second; `none`: not a first byte. -/
def leading (x : Nat) : Option (Nat × Nat × Nat) :=
  if x < 0xC2 then none
  else if x < 0xE0 then some (2, 0x80, 0xBF)
  else if x = 0xE0 then some (3, 0xA0, 0xBF)
  else if x = 0xED then some (3, 0x80, 0x9F)
  else if x < 0xF0 then some (3, 0x80, 0xBF)
  else if x = 0xF0 then some (4, 0x90, 0xBF)
  else if x < 0xF4 then some (4, 0x80, 0xBF)
  else if x = 0xF4 then some (4, 0x80, 0x8F)
  else none

/-- The rest of `utf8.DecodeRune` after the first byte: the rune, if its bytes are there. -/
def decodeMore (x : Nat) (more : Bytes) : Option Sym :=
  match leading x with
  | none => none
  | some (n, lo, hi) =>
    match more with
    | [] => none
    | b1 :: more =>
      if b1.toNat < lo ∨ hi < b1.toNat then none
      else if n = 2 then some ⟨Char.ofNat (x % 32 * 64 + b1.toNat % 64), 2⟩
      else
        match more with
        | [] => none
        | b2 :: more =>
          if b2.toNat < 0x80 ∨ 0xBF < b2.toNat then none
          else if n = 3 then
            some ⟨Char.ofNat (x % 16 * 4096 + b1.toNat % 64 * 64 + b2.toNat % 64), 3⟩
          else
            match more with
            | [] => none
            | b3 :: _ =>
              if b3.toNat < 0x80 ∨ 0xBF < b3.toNat then none
              else some ⟨Char.ofNat (x % 8 * 262144 + b1.toNat % 64 * 4096 + b2.toNat % 64 * 64 +
                b3.toNat % 64), 4⟩

/-- `utf8.DecodeRune` on `b :: more`: an invalid byte is U+FFFD of width 1. -/
def decodeRune (b : UInt8) (more : Bytes) : Sym :=
  if b.toNat < 0x80 then ⟨Char.ofNat b.toNat, 1⟩
  else (decodeMore b.toNat more).getD ⟨Pigeon.runeError, 1⟩

/-- Decoding, with a bound on the number of runes. -/
def decodeN : Nat → Bytes → List Sym
  | 0, _ => []
  | _, [] => []
  | n + 1, b :: more =>
    let x := decodeRune b more
    x :: decodeN n ((b :: more).drop x.w)

/-- The runes of a string with their widths: what `[]rune(s)`, the regular expressions and the parser
(parser.go:2981) read. -/
def decode (bs : Bytes) : List Sym := decodeN bs.length bs

/-- `util.CheckIfInputMayBeASecretRoll` (pkg/core/util/secret_roll.go:8-21) on bytes: behind the mark,
the runes are encoded again. -/
def checkSecretBytes (input : Bytes) : Bytes × Bool :=
  match (decode input).map Sym.rn with
  | [] => ([], false)
  | c :: rest => if c = 'S' ∨ c = 's' then (encode rest, true) else (input, false)

/-- First capture of `\A([^\s]*)(\s.*)?` (pkg/bcdice/bcdice.go:60, 66-67) on bytes: the bytes of the
leading runes that are not white space. -/
def firstPartBytes (bs : Bytes) : Bytes :=
  bs.take (((decode bs).takeWhile (fun x => !isReSpace x.rn)).map Sym.w).sum

/-- `ExecuteBasicCommand` (bcdice.go:109-119) on bytes, with the generated parser; the type assertion
`node.(ast.Node)` panics on other values, which C64 proves do not occur. -/
def executeBasicBytes {σ} (F : DieFeeder σ) (gameID : Str) (c : Bytes) (f : σ) : Out Result × σ :=
  match goParse chars!"input" (decode c) with
  | .error m => (.err m, f)
  | .ok v =>
    match v.toNode with
    | none => (.panic chars!"interface conversion", f)
    | some node => runFresh ((newEvaluator F).execute gameID node) f

/-- A dice bot whose game-specific command takes bytes (pkg/dicebot/dicebot.go:17-28). -/
structure ByteBot (σ : Type) where
  info : BotInfo
  executeCommand : Bytes → Evaluator σ → M σ Result

/-- `basic.New` (pkg/dicebot/gamesystem/basic/basic.go:45-51, dicebot.go:73-78). -/
def basicByteBot {σ} (usage : Str) : ByteBot σ :=
  { info := basicInfo usage
    executeCommand := fun _ _ => M.fail chars!"no game-system-specific command" }

/-- `BCDice.ExecuteCommand` (bcdice.go:63-93) on bytes. -/
def executeBytes {σ} (F : DieFeeder σ) (bot : ByteBot σ) (input : Bytes) (f : σ) : Out Result × σ :=
  let (cmd, isSecret) := checkSecretBytes input
  let first := firstPartBytes cmd
  match runFresh (bot.executeCommand first (newEvaluator F)) f with
  | (.ok r, f1) => (.ok (r.withSecret isSecret), f1)
  | (.panic m, f1) => (.panic m, f1)
  | (.err _, f1) =>
    match executeBasicBytes F bot.info.gameID cmd f1 with
    | (.ok r, f2) => (.ok (r.withSecret isSecret), f2)
    | (.panic m, f2) => (.panic m, f2)
    | (.err _, f2) =>
      match executeBasicBytes F bot.info.gameID first f2 with
      | (.ok r, f3) => (.ok (r.withSecret isSecret), f3)
      | (.panic m, f3) => (.panic m, f3)
      | (.err e, f3) => (.err e, f3)

end GoBCDice
