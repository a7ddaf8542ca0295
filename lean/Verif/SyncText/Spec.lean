import Verif.SyncText.Model

/-! # What the texts are to say -/

namespace Verif.SyncText

/-- The texts of the bits that are set, in the order of the map. -/
def shown (mask : BitVec 32) (map : Map) : List (List Char) :=
  (map.filter fun m => mask &&& m.1 ≠ 0).map Prod.snd

/-- The whole text: each name and a blank, or `none`. -/
def whole (mask : BitVec 32) (map : Map) : List Char :=
  if mask = 0 then "none".toList else (shown mask map).flatMap (· ++ [' '])

/-- What of a text fits into an array: all of it, or the beginning and dots. -/
def fitted (size : Nat) (text : List Char) : List Char :=
  if text.length < size then text else text.take (size - 4) ++ "...".toList

/-- The words of a text that is read from the left, given the beginning of the first. -/
def wordsFrom (cur : List Char) : List Char → List (List Char)
  | [] => if cur = [] then [] else [cur]
  | c :: s =>
    if c = ' ' then (if cur = [] then wordsFrom [] s else cur :: wordsFrom [] s)
    else wordsFrom (cur ++ [c]) s

/-- The words of a text: what is between blanks. -/
def words (s : List Char) : List (List Char) := wordsFrom [] s

/-- The names of alarms and their bits. -/
def alarmNames : List (Nat × List Char) :=
  [(7, "pps-no-signal".toList), (8, "pps-seq-num-error".toList), (9, "no-time-of-day".toList),
   (10, "pps-bad-signal".toList), (0, "no-sync-pkts".toList), (1, "no-follow-ups".toList),
   (2, "no-delay-resps".toList), (3, "no-pdelay-resps".toList), (4, "no-pdelay-resp-follow-ups".toList),
   (5, "no-tx-timestamps".toList), (6, "no-rx-timestamps".toList), (11, "no-interface".toList),
   (12, "clock-ctrl-failure".toList), (13, "clock-near-epoch".toList), (14, "caps-mismatch".toList),
   (15, "clustering-guard".toList), (16, "sustained-sync-failure".toList)]

/-- The names of the alarms that are set. -/
def namesSet (mask : BitVec 32) (names : List (Nat × List Char)) : List (List Char) :=
  (names.filter fun m => mask.getLsbD m.1).map Prod.snd

/-- Elements of a list separated by a text. -/
def separated (sep : List Char) : List (List Char) → List Char
  | [] => []
  | [x] => x
  | x :: xs => x ++ sep ++ separated sep xs

/-- A name between quotes. -/
def quoted (s : List Char) : List Char := '"' :: (s ++ ['"'])

end Verif.SyncText
