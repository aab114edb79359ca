import Verif.Model.FloatSmear
import Verif.Lemmas.Float

/-! # Examples of windows computed with python's floats -/

namespace Verif

namespace Ex

/-- Python's floats. -/
abbrev py : Rounding := binary 53 (by norm_num)

/-- Five bins from 3 to 9. -/
def threeNine : SPar := ⟨lit "energy_mc", 3, 9, 5⟩

/-- Three bins from 0 to 1. -/
def thirds : SPar := ⟨lit "energy_mc", 0, 1, 3⟩

theorem xa0 : py.sub (9) (3) = (6) := by
  change roundBits 53 ((9) - (3)) = _
  rw [show ((9) - (3) : ℚ) = (6) by norm_num,
    roundBits_eq 53 (e := 2) (by norm_num [abs_of_pos]) (by norm_num [abs_of_pos])]
  norm_num [npRint, Int.fract]

theorem xa1 : py.div (6) (5) = (5404319552844595 / 4503599627370496) := by
  change roundBits 53 ((6) / (5)) = _
  rw [show ((6) / (5) : ℚ) = (6 / 5) by norm_num,
    roundBits_eq 53 (e := 0) (by norm_num [abs_of_pos]) (by norm_num [abs_of_pos])]
  norm_num [npRint, Int.fract]

theorem a_width : py.width threeNine = (5404319552844595 / 4503599627370496) := by
  unfold Rounding.width
  simp only [threeNine]
  push_cast
  rw [xa0, xa1]

theorem xa2 : py.add (3) (1 / 2) = (7 / 2) := by
  change roundBits 53 ((3) + (1 / 2)) = _
  rw [show ((3) + (1 / 2) : ℚ) = (7 / 2) by norm_num,
    roundBits_eq 53 (e := 1) (by norm_num [abs_of_pos]) (by norm_num [abs_of_pos])]
  norm_num [npRint, Int.fract]

theorem xa3 : py.mul (7 / 2) (5404319552844595 / 4503599627370496) = (4728779608739021 / 1125899906842624) := by
  change roundBits 53 ((7 / 2) * (5404319552844595 / 4503599627370496)) = _
  rw [show ((7 / 2) * (5404319552844595 / 4503599627370496) : ℚ) = (37830236869912165 / 9007199254740992) by norm_num,
    roundBits_eq 53 (e := 2) (by norm_num [abs_of_pos]) (by norm_num [abs_of_pos])]
  norm_num [npRint, Int.fract]

theorem xa4 : py.add (3) (4728779608739021 / 1125899906842624) = (8106479329266893 / 1125899906842624) := by
  change roundBits 53 ((3) + (4728779608739021 / 1125899906842624)) = _
  rw [show ((3) + (4728779608739021 / 1125899906842624) : ℚ) = (8106479329266893 / 1125899906842624) by norm_num,
    roundBits_eq 53 (e := 2) (by norm_num [abs_of_pos]) (by norm_num [abs_of_pos])]
  norm_num [npRint, Int.fract]

theorem a_mean : py.binMean threeNine 3 = (8106479329266893 / 1125899906842624) := by
  unfold Rounding.binMean
  rw [a_width]
  simp only [threeNine]
  push_cast
  rw [xa2, xa3, xa4]

theorem xa5 : py.mul (1 / 2) (5404319552844595 / 4503599627370496) = (5404319552844595 / 9007199254740992) := by
  change roundBits 53 ((1 / 2) * (5404319552844595 / 4503599627370496)) = _
  rw [show ((1 / 2) * (5404319552844595 / 4503599627370496) : ℚ) = (5404319552844595 / 9007199254740992) by norm_num,
    roundBits_eq 53 (e := -1) (by norm_num [abs_of_pos]) (by norm_num [abs_of_pos])]
  norm_num [npRint, Int.fract]

theorem xa6 : py.mul (1) (1 / 2) = (1 / 2) := by
  change roundBits 53 ((1) * (1 / 2)) = _
  rw [show ((1) * (1 / 2) : ℚ) = (1 / 2) by norm_num,
    roundBits_eq 53 (e := -1) (by norm_num [abs_of_pos]) (by norm_num [abs_of_pos])]
  norm_num [npRint, Int.fract]

theorem xa7 : py.sub (8106479329266893 / 1125899906842624) (1 / 2) = (7543529375845581 / 1125899906842624) := by
  change roundBits 53 ((8106479329266893 / 1125899906842624) - (1 / 2)) = _
  rw [show ((8106479329266893 / 1125899906842624) - (1 / 2) : ℚ) = (7543529375845581 / 1125899906842624) by norm_num,
    roundBits_eq 53 (e := 2) (by norm_num [abs_of_pos]) (by norm_num [abs_of_pos])]
  norm_num [npRint, Int.fract]

theorem xa8 : py.sub (7543529375845581 / 1125899906842624) (5404319552844595 / 9007199254740992) = (6867989431740007 / 1125899906842624) := by
  change roundBits 53 ((7543529375845581 / 1125899906842624) - (5404319552844595 / 9007199254740992)) = _
  rw [show ((7543529375845581 / 1125899906842624) - (5404319552844595 / 9007199254740992) : ℚ) = (54943915453920053 / 9007199254740992) by norm_num,
    roundBits_eq 53 (e := 2) (by norm_num [abs_of_pos]) (by norm_num [abs_of_pos])]
  norm_num [npRint, Int.fract]

theorem xa9 : py.div (6867989431740007 / 1125899906842624) (5404319552844595 / 4503599627370496) = (2861662263225003 / 562949953421312) := by
  change roundBits 53 ((6867989431740007 / 1125899906842624) / (5404319552844595 / 4503599627370496)) = _
  rw [show ((6867989431740007 / 1125899906842624) / (5404319552844595 / 4503599627370496) : ℚ) = (27471957726960028 / 5404319552844595) by norm_num,
    roundBits_eq 53 (e := 2) (by norm_num [abs_of_pos]) (by norm_num [abs_of_pos])]
  norm_num [npRint, Int.fract]

theorem xa10 : py.mul (5) (5404319552844595 / 4503599627370496) = (6) := by
  change roundBits 53 ((5) * (5404319552844595 / 4503599627370496)) = _
  rw [show ((5) * (5404319552844595 / 4503599627370496) : ℚ) = (27021597764222975 / 4503599627370496) by norm_num,
    roundBits_eq 53 (e := 2) (by norm_num [abs_of_pos]) (by norm_num [abs_of_pos])]
  norm_num [npRint, Int.fract]

theorem a_rlow : py.round threeNine (6867989431740007 / 1125899906842624) = (6) := by
  unfold Rounding.round
  rw [a_width, xa9, show pyRound (2861662263225003 / 562949953421312) = 5 by norm_num [pyRound]]
  push_cast
  exact xa10

theorem xa11 : py.add (6) (5404319552844595 / 9007199254740992) = (3715469692580659 / 562949953421312) := by
  change roundBits 53 ((6) + (5404319552844595 / 9007199254740992)) = _
  rw [show ((6) + (5404319552844595 / 9007199254740992) : ℚ) = (59447515081290547 / 9007199254740992) by norm_num,
    roundBits_eq 53 (e := 2) (by norm_num [abs_of_pos]) (by norm_num [abs_of_pos])]
  norm_num [npRint, Int.fract]

theorem xa12 : py.add (8106479329266893 / 1125899906842624) (1 / 2) = (8669429282688205 / 1125899906842624) := by
  change roundBits 53 ((8106479329266893 / 1125899906842624) + (1 / 2)) = _
  rw [show ((8106479329266893 / 1125899906842624) + (1 / 2) : ℚ) = (8669429282688205 / 1125899906842624) by norm_num,
    roundBits_eq 53 (e := 2) (by norm_num [abs_of_pos]) (by norm_num [abs_of_pos])]
  norm_num [npRint, Int.fract]

theorem xa13 : py.add (8669429282688205 / 1125899906842624) (5404319552844595 / 9007199254740992) = (2336242306698445 / 281474976710656) := by
  change roundBits 53 ((8669429282688205 / 1125899906842624) + (5404319552844595 / 9007199254740992)) = _
  rw [show ((8669429282688205 / 1125899906842624) + (5404319552844595 / 9007199254740992) : ℚ) = (74759753814350235 / 9007199254740992) by norm_num,
    roundBits_eq 53 (e := 3) (by norm_num [abs_of_pos]) (by norm_num [abs_of_pos])]
  norm_num [npRint, Int.fract]

theorem xa14 : py.div (2336242306698445 / 281474976710656) (5404319552844595 / 4503599627370496) = (1946868588915371 / 281474976710656) := by
  change roundBits 53 ((2336242306698445 / 281474976710656) / (5404319552844595 / 4503599627370496)) = _
  rw [show ((2336242306698445 / 281474976710656) / (5404319552844595 / 4503599627370496) : ℚ) = (7475975381435024 / 1080863910568919) by norm_num,
    roundBits_eq 53 (e := 2) (by norm_num [abs_of_pos]) (by norm_num [abs_of_pos])]
  norm_num [npRint, Int.fract]

theorem xa15 : py.mul (7) (5404319552844595 / 4503599627370496) = (4728779608739021 / 562949953421312) := by
  change roundBits 53 ((7) * (5404319552844595 / 4503599627370496)) = _
  rw [show ((7) * (5404319552844595 / 4503599627370496) : ℚ) = (37830236869912165 / 4503599627370496) by norm_num,
    roundBits_eq 53 (e := 3) (by norm_num [abs_of_pos]) (by norm_num [abs_of_pos])]
  norm_num [npRint, Int.fract]

theorem a_rhigh : py.round threeNine (2336242306698445 / 281474976710656) = (4728779608739021 / 562949953421312) := by
  unfold Rounding.round
  rw [a_width, xa14, show pyRound (1946868588915371 / 281474976710656) = 7 by norm_num [pyRound]]
  push_cast
  exact xa15

theorem xa16 : py.add (4728779608739021 / 562949953421312) (5404319552844595 / 9007199254740992) = (9) := by
  change roundBits 53 ((4728779608739021 / 562949953421312) + (5404319552844595 / 9007199254740992)) = _
  rw [show ((4728779608739021 / 562949953421312) + (5404319552844595 / 9007199254740992) : ℚ) = (81064793292668931 / 9007199254740992) by norm_num,
    roundBits_eq 53 (e := 3) (by norm_num [abs_of_pos]) (by norm_num [abs_of_pos])]
  norm_num [npRint, Int.fract]

theorem a_window : py.smearWindow threeNine (1) (1 / 2) (8106479329266893 / 1125899906842624) = ((3715469692580659 / 562949953421312), (9)) := by
  unfold Rounding.smearWindow
  simp only [a_width, xa5, xa6, xa7, xa8, a_rlow, xa11, xa12, xa13, a_rhigh, xa16]
  rw [if_neg (by norm_num [threeNine]), if_neg (by norm_num [threeNine])]

theorem xa17 : py.sub (9) (3715469692580659 / 562949953421312) = (1351079888211149 / 562949953421312) := by
  change roundBits 53 ((9) - (3715469692580659 / 562949953421312)) = _
  rw [show ((9) - (3715469692580659 / 562949953421312) : ℚ) = (1351079888211149 / 562949953421312) by norm_num,
    roundBits_eq 53 (e := 1) (by norm_num [abs_of_pos]) (by norm_num [abs_of_pos])]
  norm_num [npRint, Int.fract]

theorem xa18 : py.div (1351079888211149 / 562949953421312) (5404319552844595 / 4503599627370496) = (4503599627370497 / 2251799813685248) := by
  change roundBits 53 ((1351079888211149 / 562949953421312) / (5404319552844595 / 4503599627370496)) = _
  rw [show ((1351079888211149 / 562949953421312) / (5404319552844595 / 4503599627370496) : ℚ) = (10808639105689192 / 5404319552844595) by norm_num,
    roundBits_eq 53 (e := 1) (by norm_num [abs_of_pos]) (by norm_num [abs_of_pos])]
  norm_num [npRint, Int.fract]

theorem xa19 : py.add (3715469692580659 / 562949953421312) (5404319552844595 / 4503599627370496) = (8782019273372467 / 1125899906842624) := by
  change roundBits 53 ((3715469692580659 / 562949953421312) + (5404319552844595 / 4503599627370496)) = _
  rw [show ((3715469692580659 / 562949953421312) + (5404319552844595 / 4503599627370496) : ℚ) = (35128077093489867 / 4503599627370496) by norm_num,
    roundBits_eq 53 (e := 2) (by norm_num [abs_of_pos]) (by norm_num [abs_of_pos])]
  norm_num [npRint, Int.fract]

theorem xa20 : py.sub (8782019273372467 / 1125899906842624) (3715469692580659 / 562949953421312) = (1351079888211149 / 1125899906842624) := by
  change roundBits 53 ((8782019273372467 / 1125899906842624) - (3715469692580659 / 562949953421312)) = _
  rw [show ((8782019273372467 / 1125899906842624) - (3715469692580659 / 562949953421312) : ℚ) = (1351079888211149 / 1125899906842624) by norm_num,
    roundBits_eq 53 (e := 0) (by norm_num [abs_of_pos]) (by norm_num [abs_of_pos])]
  norm_num [npRint, Int.fract]

theorem xa21 : py.mul (2) (1351079888211149 / 1125899906842624) = (1351079888211149 / 562949953421312) := by
  change roundBits 53 ((2) * (1351079888211149 / 1125899906842624)) = _
  rw [show ((2) * (1351079888211149 / 1125899906842624) : ℚ) = (1351079888211149 / 562949953421312) by norm_num,
    roundBits_eq 53 (e := 1) (by norm_num [abs_of_pos]) (by norm_num [abs_of_pos])]
  norm_num [npRint, Int.fract]

theorem xa22 : py.add (3715469692580659 / 562949953421312) (1351079888211149 / 562949953421312) = (9) := by
  change roundBits 53 ((3715469692580659 / 562949953421312) + (1351079888211149 / 562949953421312)) = _
  rw [show ((3715469692580659 / 562949953421312) + (1351079888211149 / 562949953421312) : ℚ) = (9) by norm_num,
    roundBits_eq 53 (e := 3) (by norm_num [abs_of_pos]) (by norm_num [abs_of_pos])]
  norm_num [npRint, Int.fract]

theorem a_points : py.smearPoints threeNine (1) (1 / 2) (py.binMean threeNine 3) =
    [(3715469692580659 / 562949953421312), (8782019273372467 / 1125899906842624), (9)] := by
  unfold Rounding.smearPoints Rounding.arange
  rw [a_mean, a_window, a_width]
  dsimp only
  rw [xa17, xa18, show ⌈((4503599627370497 / 2251799813685248) : ℚ)⌉ = 3 by norm_num [Int.ceil_eq_iff]]
  simp only [show ((3 : ℤ)).toNat = 3 from rfl, List.range_succ_eq_map, List.range_zero, List.map_cons, List.map_nil, Nat.succ_eq_add_one, zero_add, Nat.reduceAdd, Nat.reduceEqDiff, if_true, if_false, one_ne_zero, OfNat.ofNat_ne_zero, OfNat.ofNat_ne_one, Nat.cast_ofNat, xa19, xa20, xa21, xa22]

theorem xb0 : py.sub (1) (0) = (1) := by
  change roundBits 53 ((1) - (0)) = _
  rw [show ((1) - (0) : ℚ) = (1) by norm_num,
    roundBits_eq 53 (e := 0) (by norm_num [abs_of_pos]) (by norm_num [abs_of_pos])]
  norm_num [npRint, Int.fract]

theorem xb1 : py.div (1) (3) = (6004799503160661 / 18014398509481984) := by
  change roundBits 53 ((1) / (3)) = _
  rw [show ((1) / (3) : ℚ) = (1 / 3) by norm_num,
    roundBits_eq 53 (e := -2) (by norm_num [abs_of_pos]) (by norm_num [abs_of_pos])]
  norm_num [npRint, Int.fract]

theorem b_width : py.width thirds = (6004799503160661 / 18014398509481984) := by
  unfold Rounding.width
  simp only [thirds]
  push_cast
  rw [xb0, xb1]

theorem xb2 : py.add (1) (1 / 2) = (3 / 2) := by
  change roundBits 53 ((1) + (1 / 2)) = _
  rw [show ((1) + (1 / 2) : ℚ) = (3 / 2) by norm_num,
    roundBits_eq 53 (e := 0) (by norm_num [abs_of_pos]) (by norm_num [abs_of_pos])]
  norm_num [npRint, Int.fract]

theorem xb3 : py.mul (3 / 2) (6004799503160661 / 18014398509481984) = (1 / 2) := by
  change roundBits 53 ((3 / 2) * (6004799503160661 / 18014398509481984)) = _
  rw [show ((3 / 2) * (6004799503160661 / 18014398509481984) : ℚ) = (18014398509481983 / 36028797018963968) by norm_num,
    roundBits_eq 53 (e := -2) (by norm_num [abs_of_pos]) (by norm_num [abs_of_pos])]
  norm_num [npRint, Int.fract]

theorem xb4 : py.add (0) (1 / 2) = (1 / 2) := by
  change roundBits 53 ((0) + (1 / 2)) = _
  rw [show ((0) + (1 / 2) : ℚ) = (1 / 2) by norm_num,
    roundBits_eq 53 (e := -1) (by norm_num [abs_of_pos]) (by norm_num [abs_of_pos])]
  norm_num [npRint, Int.fract]

theorem b_mean : py.binMean thirds 1 = (1 / 2) := by
  unfold Rounding.binMean
  rw [b_width]
  simp only [thirds]
  push_cast
  rw [xb2, xb3, xb4]

theorem xb5 : py.mul (1 / 2) (6004799503160661 / 18014398509481984) = (6004799503160661 / 36028797018963968) := by
  change roundBits 53 ((1 / 2) * (6004799503160661 / 18014398509481984)) = _
  rw [show ((1 / 2) * (6004799503160661 / 18014398509481984) : ℚ) = (6004799503160661 / 36028797018963968) by norm_num,
    roundBits_eq 53 (e := -3) (by norm_num [abs_of_pos]) (by norm_num [abs_of_pos])]
  norm_num [npRint, Int.fract]

theorem xb6 : py.mul (1) (1) = (1) := by
  change roundBits 53 ((1) * (1)) = _
  rw [show ((1) * (1) : ℚ) = (1) by norm_num,
    roundBits_eq 53 (e := 0) (by norm_num [abs_of_pos]) (by norm_num [abs_of_pos])]
  norm_num [npRint, Int.fract]

theorem xb7 : py.sub (1 / 2) (1) = (-(1 / 2)) := by
  change roundBits 53 ((1 / 2) - (1)) = _
  rw [show ((1 / 2) - (1) : ℚ) = (-(1 / 2)) by norm_num,
    roundBits_eq 53 (e := -1) (by norm_num [abs_of_pos]) (by norm_num [abs_of_pos])]
  norm_num [npRint, Int.fract]

theorem xb8 : py.sub (-(1 / 2)) (6004799503160661 / 36028797018963968) = (-(6004799503160661 / 9007199254740992)) := by
  change roundBits 53 ((-(1 / 2)) - (6004799503160661 / 36028797018963968)) = _
  rw [show ((-(1 / 2)) - (6004799503160661 / 36028797018963968) : ℚ) = (-(24019198012642645 / 36028797018963968)) by norm_num,
    roundBits_eq 53 (e := -1) (by norm_num [abs_of_pos]) (by norm_num [abs_of_pos])]
  norm_num [npRint, Int.fract]

theorem xb9 : py.div (-(6004799503160661 / 9007199254740992)) (6004799503160661 / 18014398509481984) = (-(2)) := by
  change roundBits 53 ((-(6004799503160661 / 9007199254740992)) / (6004799503160661 / 18014398509481984)) = _
  rw [show ((-(6004799503160661 / 9007199254740992)) / (6004799503160661 / 18014398509481984) : ℚ) = (-(2)) by norm_num,
    roundBits_eq 53 (e := 1) (by norm_num [abs_of_pos]) (by norm_num [abs_of_pos])]
  norm_num [npRint, Int.fract]

theorem xb10 : py.mul (-(2)) (6004799503160661 / 18014398509481984) = (-(6004799503160661 / 9007199254740992)) := by
  change roundBits 53 ((-(2)) * (6004799503160661 / 18014398509481984)) = _
  rw [show ((-(2)) * (6004799503160661 / 18014398509481984) : ℚ) = (-(6004799503160661 / 9007199254740992)) by norm_num,
    roundBits_eq 53 (e := -1) (by norm_num [abs_of_pos]) (by norm_num [abs_of_pos])]
  norm_num [npRint, Int.fract]

theorem b_rlow : py.round thirds (-(6004799503160661 / 9007199254740992)) = (-(6004799503160661 / 9007199254740992)) := by
  unfold Rounding.round
  rw [b_width, xb9, show pyRound (-(2)) = -2 by norm_num [pyRound]]
  push_cast
  exact xb10

theorem xb11 : py.add (-(6004799503160661 / 9007199254740992)) (6004799503160661 / 36028797018963968) = (-(1 / 2)) := by
  change roundBits 53 ((-(6004799503160661 / 9007199254740992)) + (6004799503160661 / 36028797018963968)) = _
  rw [show ((-(6004799503160661 / 9007199254740992)) + (6004799503160661 / 36028797018963968) : ℚ) = (-(18014398509481983 / 36028797018963968)) by norm_num,
    roundBits_eq 53 (e := -2) (by norm_num [abs_of_pos]) (by norm_num [abs_of_pos])]
  norm_num [npRint, Int.fract]

theorem xb12 : py.add (1 / 2) (1) = (3 / 2) := by
  change roundBits 53 ((1 / 2) + (1)) = _
  rw [show ((1 / 2) + (1) : ℚ) = (3 / 2) by norm_num,
    roundBits_eq 53 (e := 0) (by norm_num [abs_of_pos]) (by norm_num [abs_of_pos])]
  norm_num [npRint, Int.fract]

theorem xb13 : py.add (3 / 2) (6004799503160661 / 36028797018963968) = (7505999378950827 / 4503599627370496) := by
  change roundBits 53 ((3 / 2) + (6004799503160661 / 36028797018963968)) = _
  rw [show ((3 / 2) + (6004799503160661 / 36028797018963968) : ℚ) = (60047995031606613 / 36028797018963968) by norm_num,
    roundBits_eq 53 (e := 0) (by norm_num [abs_of_pos]) (by norm_num [abs_of_pos])]
  norm_num [npRint, Int.fract]

theorem xb14 : py.div (7505999378950827 / 4503599627370496) (6004799503160661 / 18014398509481984) = (5629499534213121 / 1125899906842624) := by
  change roundBits 53 ((7505999378950827 / 4503599627370496) / (6004799503160661 / 18014398509481984)) = _
  rw [show ((7505999378950827 / 4503599627370496) / (6004799503160661 / 18014398509481984) : ℚ) = (10007999171934436 / 2001599834386887) by norm_num,
    roundBits_eq 53 (e := 2) (by norm_num [abs_of_pos]) (by norm_num [abs_of_pos])]
  norm_num [npRint, Int.fract]

theorem xb15 : py.mul (5) (6004799503160661 / 18014398509481984) = (3752999689475413 / 2251799813685248) := by
  change roundBits 53 ((5) * (6004799503160661 / 18014398509481984)) = _
  rw [show ((5) * (6004799503160661 / 18014398509481984) : ℚ) = (30023997515803305 / 18014398509481984) by norm_num,
    roundBits_eq 53 (e := 0) (by norm_num [abs_of_pos]) (by norm_num [abs_of_pos])]
  norm_num [npRint, Int.fract]

theorem b_rhigh : py.round thirds (7505999378950827 / 4503599627370496) = (3752999689475413 / 2251799813685248) := by
  unfold Rounding.round
  rw [b_width, xb14, show pyRound (5629499534213121 / 1125899906842624) = 5 by norm_num [pyRound]]
  push_cast
  exact xb15

theorem xb16 : py.add (3752999689475413 / 2251799813685248) (6004799503160661 / 36028797018963968) = (8256599316845909 / 4503599627370496) := by
  change roundBits 53 ((3752999689475413 / 2251799813685248) + (6004799503160661 / 36028797018963968)) = _
  rw [show ((3752999689475413 / 2251799813685248) + (6004799503160661 / 36028797018963968) : ℚ) = (66052794534767269 / 36028797018963968) by norm_num,
    roundBits_eq 53 (e := 0) (by norm_num [abs_of_pos]) (by norm_num [abs_of_pos])]
  norm_num [npRint, Int.fract]

theorem xb17 : py.add (0) (6004799503160661 / 36028797018963968) = (6004799503160661 / 36028797018963968) := by
  change roundBits 53 ((0) + (6004799503160661 / 36028797018963968)) = _
  rw [show ((0) + (6004799503160661 / 36028797018963968) : ℚ) = (6004799503160661 / 36028797018963968) by norm_num,
    roundBits_eq 53 (e := -3) (by norm_num [abs_of_pos]) (by norm_num [abs_of_pos])]
  norm_num [npRint, Int.fract]

theorem xb18 : py.sub (1) (6004799503160661 / 36028797018963968) = (7505999378950827 / 9007199254740992) := by
  change roundBits 53 ((1) - (6004799503160661 / 36028797018963968)) = _
  rw [show ((1) - (6004799503160661 / 36028797018963968) : ℚ) = (30023997515803307 / 36028797018963968) by norm_num,
    roundBits_eq 53 (e := -1) (by norm_num [abs_of_pos]) (by norm_num [abs_of_pos])]
  norm_num [npRint, Int.fract]

theorem b_window : py.smearWindow thirds (1) (1) (1 / 2) = ((6004799503160661 / 36028797018963968), (7505999378950827 / 9007199254740992)) := by
  unfold Rounding.smearWindow
  simp only [b_width, xb5, xb6, xb7, xb8, b_rlow, xb11, xb12, xb13, b_rhigh, xb16]
  rw [if_pos (by norm_num [thirds]), if_pos (by norm_num [thirds])]
  change (py.add (0) (6004799503160661 / 36028797018963968), py.sub (1) (6004799503160661 / 36028797018963968)) = _
  rw [xb17, xb18]

theorem xb19 : py.sub (7505999378950827 / 9007199254740992) (6004799503160661 / 36028797018963968) = (3002399751580331 / 4503599627370496) := by
  change roundBits 53 ((7505999378950827 / 9007199254740992) - (6004799503160661 / 36028797018963968)) = _
  rw [show ((7505999378950827 / 9007199254740992) - (6004799503160661 / 36028797018963968) : ℚ) = (24019198012642647 / 36028797018963968) by norm_num,
    roundBits_eq 53 (e := -1) (by norm_num [abs_of_pos]) (by norm_num [abs_of_pos])]
  norm_num [npRint, Int.fract]

theorem xb20 : py.div (3002399751580331 / 4503599627370496) (6004799503160661 / 18014398509481984) = (4503599627370497 / 2251799813685248) := by
  change roundBits 53 ((3002399751580331 / 4503599627370496) / (6004799503160661 / 18014398509481984)) = _
  rw [show ((3002399751580331 / 4503599627370496) / (6004799503160661 / 18014398509481984) : ℚ) = (12009599006321324 / 6004799503160661) by norm_num,
    roundBits_eq 53 (e := 1) (by norm_num [abs_of_pos]) (by norm_num [abs_of_pos])]
  norm_num [npRint, Int.fract]

theorem xb21 : py.add (6004799503160661 / 36028797018963968) (6004799503160661 / 18014398509481984) = (1 / 2) := by
  change roundBits 53 ((6004799503160661 / 36028797018963968) + (6004799503160661 / 18014398509481984)) = _
  rw [show ((6004799503160661 / 36028797018963968) + (6004799503160661 / 18014398509481984) : ℚ) = (18014398509481983 / 36028797018963968) by norm_num,
    roundBits_eq 53 (e := -2) (by norm_num [abs_of_pos]) (by norm_num [abs_of_pos])]
  norm_num [npRint, Int.fract]

theorem xb22 : py.sub (1 / 2) (6004799503160661 / 36028797018963968) = (3002399751580331 / 9007199254740992) := by
  change roundBits 53 ((1 / 2) - (6004799503160661 / 36028797018963968)) = _
  rw [show ((1 / 2) - (6004799503160661 / 36028797018963968) : ℚ) = (12009599006321323 / 36028797018963968) by norm_num,
    roundBits_eq 53 (e := -2) (by norm_num [abs_of_pos]) (by norm_num [abs_of_pos])]
  norm_num [npRint, Int.fract]

theorem xb23 : py.mul (2) (3002399751580331 / 9007199254740992) = (3002399751580331 / 4503599627370496) := by
  change roundBits 53 ((2) * (3002399751580331 / 9007199254740992)) = _
  rw [show ((2) * (3002399751580331 / 9007199254740992) : ℚ) = (3002399751580331 / 4503599627370496) by norm_num,
    roundBits_eq 53 (e := -1) (by norm_num [abs_of_pos]) (by norm_num [abs_of_pos])]
  norm_num [npRint, Int.fract]

theorem xb24 : py.add (6004799503160661 / 36028797018963968) (3002399751580331 / 4503599627370496) = (7505999378950827 / 9007199254740992) := by
  change roundBits 53 ((6004799503160661 / 36028797018963968) + (3002399751580331 / 4503599627370496)) = _
  rw [show ((6004799503160661 / 36028797018963968) + (3002399751580331 / 4503599627370496) : ℚ) = (30023997515803309 / 36028797018963968) by norm_num,
    roundBits_eq 53 (e := -1) (by norm_num [abs_of_pos]) (by norm_num [abs_of_pos])]
  norm_num [npRint, Int.fract]

theorem b_points : py.smearPoints thirds (1) (1) (py.binMean thirds 1) =
    [(6004799503160661 / 36028797018963968), (1 / 2), (7505999378950827 / 9007199254740992)] := by
  unfold Rounding.smearPoints Rounding.arange
  rw [b_mean, b_window, b_width]
  dsimp only
  rw [xb19, xb20, show ⌈((4503599627370497 / 2251799813685248) : ℚ)⌉ = 3 by norm_num [Int.ceil_eq_iff]]
  simp only [show ((3 : ℤ)).toNat = 3 from rfl, List.range_succ_eq_map, List.range_zero, List.map_cons, List.map_nil, Nat.succ_eq_add_one, zero_add, Nat.reduceAdd, Nat.reduceEqDiff, if_true, if_false, one_ne_zero, OfNat.ofNat_ne_zero, OfNat.ofNat_ne_one, Nat.cast_ofNat, xb21, xb22, xb23, xb24]

end Ex

end Verif
