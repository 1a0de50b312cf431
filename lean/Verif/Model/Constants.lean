import Mathlib.Data.Rat.Defs
import Mathlib.Algebra.Field.Rat
import Mathlib.Data.List.Basic

/-!
# Model of `/repo/ramannoodle/constants.py`

The two element tables, transcribed in full (dictionary order is kept).  Element symbols
are lists of characters.
-/

namespace Verif

/-- Element symbols and other words of text files. -/
abbrev Word := List Char

/-- `ATOMIC_NUMBERS`, constants.py L125-244. -/
def atomicNumbers : List (Word × ℕ) := [
  (['H'], 1),
  (['H', 'e'], 2),
  (['L', 'i'], 3),
  (['B', 'e'], 4),
  (['B'], 5),
  (['C'], 6),
  (['N'], 7),
  (['O'], 8),
  (['F'], 9),
  (['N', 'e'], 10),
  (['N', 'a'], 11),
  (['M', 'g'], 12),
  (['A', 'l'], 13),
  (['S', 'i'], 14),
  (['P'], 15),
  (['S'], 16),
  (['C', 'l'], 17),
  (['A', 'r'], 18),
  (['K'], 19),
  (['C', 'a'], 20),
  (['S', 'c'], 21),
  (['T', 'i'], 22),
  (['V'], 23),
  (['C', 'r'], 24),
  (['M', 'n'], 25),
  (['F', 'e'], 26),
  (['C', 'o'], 27),
  (['N', 'i'], 28),
  (['C', 'u'], 29),
  (['Z', 'n'], 30),
  (['G', 'a'], 31),
  (['G', 'e'], 32),
  (['A', 's'], 33),
  (['S', 'e'], 34),
  (['B', 'r'], 35),
  (['K', 'r'], 36),
  (['R', 'b'], 37),
  (['S', 'r'], 38),
  (['Y'], 39),
  (['Z', 'r'], 40),
  (['N', 'b'], 41),
  (['M', 'o'], 42),
  (['T', 'c'], 43),
  (['R', 'u'], 44),
  (['R', 'h'], 45),
  (['P', 'd'], 46),
  (['A', 'g'], 47),
  (['C', 'd'], 48),
  (['I', 'n'], 49),
  (['S', 'n'], 50),
  (['S', 'b'], 51),
  (['T', 'e'], 52),
  (['I'], 53),
  (['X', 'e'], 54),
  (['C', 's'], 55),
  (['B', 'a'], 56),
  (['L', 'a'], 57),
  (['C', 'e'], 58),
  (['P', 'r'], 59),
  (['N', 'd'], 60),
  (['P', 'm'], 61),
  (['S', 'm'], 62),
  (['E', 'u'], 63),
  (['G', 'd'], 64),
  (['T', 'b'], 65),
  (['D', 'y'], 66),
  (['H', 'o'], 67),
  (['E', 'r'], 68),
  (['T', 'm'], 69),
  (['Y', 'b'], 70),
  (['L', 'u'], 71),
  (['H', 'f'], 72),
  (['T', 'a'], 73),
  (['W'], 74),
  (['R', 'e'], 75),
  (['O', 's'], 76),
  (['I', 'r'], 77),
  (['P', 't'], 78),
  (['A', 'u'], 79),
  (['H', 'g'], 80),
  (['T', 'l'], 81),
  (['P', 'b'], 82),
  (['B', 'i'], 83),
  (['P', 'o'], 84),
  (['A', 't'], 85),
  (['R', 'n'], 86),
  (['F', 'r'], 87),
  (['R', 'a'], 88),
  (['A', 'c'], 89),
  (['T', 'h'], 90),
  (['P', 'a'], 91),
  (['U'], 92),
  (['N', 'p'], 93),
  (['P', 'u'], 94),
  (['A', 'm'], 95),
  (['C', 'm'], 96),
  (['B', 'k'], 97),
  (['C', 'f'], 98),
  (['E', 's'], 99),
  (['F', 'm'], 100),
  (['M', 'd'], 101),
  (['N', 'o'], 102),
  (['L', 'r'], 103),
  (['R', 'f'], 104),
  (['D', 'b'], 105),
  (['S', 'g'], 106),
  (['B', 'h'], 107),
  (['H', 's'], 108),
  (['M', 't'], 109),
  (['D', 's'], 110),
  (['R', 'g'], 111),
  (['C', 'n'], 112),
  (['N', 'h'], 113),
  (['F', 'l'], 114),
  (['M', 'c'], 115),
  (['L', 'v'], 116),
  (['T', 's'], 117),
  (['O', 'g'], 118)]

/-- Decimal mantissas and numbers of decimals of `ATOMIC_WEIGHTS` (Da), constants.py L4-123. -/
def atomicWeightDecimals : List (Word × ℕ × ℕ) := [
  (['H'], 1008, 3),
  (['H', 'e'], 4002602, 6),
  (['L', 'i'], 694, 2),
  (['B', 'e'], 90121831, 7),
  (['B'], 1081, 2),
  (['C'], 12011, 3),
  (['N'], 14007, 3),
  (['O'], 15999, 3),
  (['F'], 18998403163, 9),
  (['N', 'e'], 201797, 4),
  (['N', 'a'], 2298976928, 8),
  (['M', 'g'], 24305, 3),
  (['A', 'l'], 269815385, 7),
  (['S', 'i'], 28085, 3),
  (['P'], 30973761998, 9),
  (['S'], 3206, 2),
  (['C', 'l'], 3545, 2),
  (['A', 'r'], 39948, 3),
  (['K'], 390983, 4),
  (['C', 'a'], 40078, 3),
  (['S', 'c'], 44955908, 6),
  (['T', 'i'], 47867, 3),
  (['V'], 509415, 4),
  (['C', 'r'], 519961, 4),
  (['M', 'n'], 54938044, 6),
  (['F', 'e'], 55845, 3),
  (['C', 'o'], 58933194, 6),
  (['N', 'i'], 586934, 4),
  (['C', 'u'], 63546, 3),
  (['Z', 'n'], 6538, 2),
  (['G', 'a'], 69723, 3),
  (['G', 'e'], 7263, 2),
  (['A', 's'], 74921595, 6),
  (['S', 'e'], 78971, 3),
  (['B', 'r'], 79904, 3),
  (['K', 'r'], 83798, 3),
  (['R', 'b'], 854678, 4),
  (['S', 'r'], 8762, 2),
  (['Y'], 8890584, 5),
  (['Z', 'r'], 91224, 3),
  (['N', 'b'], 9290637, 5),
  (['M', 'o'], 9595, 2),
  (['T', 'c'], 9790721, 5),
  (['R', 'u'], 10107, 2),
  (['R', 'h'], 1029055, 4),
  (['P', 'd'], 10642, 2),
  (['A', 'g'], 1078682, 4),
  (['C', 'd'], 112414, 3),
  (['I', 'n'], 114818, 3),
  (['S', 'n'], 11871, 2),
  (['S', 'b'], 12176, 2),
  (['T', 'e'], 1276, 1),
  (['I'], 12690447, 5),
  (['X', 'e'], 131293, 3),
  (['C', 's'], 13290545196, 8),
  (['B', 'a'], 137327, 3),
  (['L', 'a'], 13890547, 5),
  (['C', 'e'], 140116, 3),
  (['P', 'r'], 14090766, 5),
  (['N', 'd'], 144242, 3),
  (['P', 'm'], 14491276, 5),
  (['S', 'm'], 15036, 2),
  (['E', 'u'], 151964, 3),
  (['G', 'd'], 15725, 2),
  (['T', 'b'], 15892535, 5),
  (['D', 'y'], 1625, 1),
  (['H', 'o'], 16493033, 5),
  (['E', 'r'], 167259, 3),
  (['T', 'm'], 16893422, 5),
  (['Y', 'b'], 173054, 3),
  (['L', 'u'], 1749668, 4),
  (['H', 'f'], 17849, 2),
  (['T', 'a'], 18094788, 5),
  (['W'], 18384, 2),
  (['R', 'e'], 186207, 3),
  (['O', 's'], 19023, 2),
  (['I', 'r'], 192217, 3),
  (['P', 't'], 195084, 3),
  (['A', 'u'], 196966569, 6),
  (['H', 'g'], 200592, 3),
  (['T', 'l'], 20438, 2),
  (['P', 'b'], 2072, 1),
  (['B', 'i'], 2089804, 4),
  (['P', 'o'], 20898243, 5),
  (['A', 't'], 20998715, 5),
  (['R', 'n'], 22201758, 5),
  (['F', 'r'], 22301974, 5),
  (['R', 'a'], 22602541, 5),
  (['A', 'c'], 22702775, 5),
  (['T', 'h'], 2320377, 4),
  (['P', 'a'], 23103588, 5),
  (['U'], 23802891, 5),
  (['N', 'p'], 23704817, 5),
  (['P', 'u'], 24406421, 5),
  (['A', 'm'], 24306138, 5),
  (['C', 'm'], 24707035, 5),
  (['B', 'k'], 24707031, 5),
  (['C', 'f'], 25107959, 5),
  (['E', 's'], 252083, 3),
  (['F', 'm'], 25709511, 5),
  (['M', 'd'], 25809843, 5),
  (['N', 'o'], 259101, 3),
  (['L', 'r'], 26211, 2),
  (['R', 'f'], 267122, 3),
  (['D', 'b'], 268126, 3),
  (['S', 'g'], 271134, 3),
  (['B', 'h'], 270133, 3),
  (['H', 's'], 2691338, 4),
  (['M', 't'], 278156, 3),
  (['D', 's'], 281165, 3),
  (['R', 'g'], 281166, 3),
  (['C', 'n'], 285177, 3),
  (['N', 'h'], 286182, 3),
  (['F', 'l'], 28919, 2),
  (['M', 'c'], 289194, 3),
  (['L', 'v'], 293204, 3),
  (['T', 's'], 293208, 3),
  (['O', 'g'], 294214, 3)]

/-- `ATOMIC_WEIGHTS` (Da) as exact rationals. -/
def atomicWeights : List (Word × ℚ) :=
  atomicWeightDecimals.map fun x => (x.1, (x.2.1 : ℚ) / 10 ^ x.2.2)

/-- `ATOM_SYMBOLS = {b: a for a, b in ATOMIC_NUMBERS.items()}`, constants.py L246. -/
def atomSymbols : List (ℕ × Word) := atomicNumbers.map fun x => (x.2, x.1)

/-- Dictionary lookup `d[key]`; `none` is `KeyError`. -/
def dictGet {α β : Type} [DecidableEq α] (d : List (α × β)) (k : α) : Option β :=
  match d with
  | [] => none
  | (k', v) :: d => if k' = k then some v else dictGet d k

end Verif
