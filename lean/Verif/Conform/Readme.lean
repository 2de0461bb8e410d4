import Verif.Conform.Basic

/-! # The examples of the README

Written by hand from `README.md`; see `Verif/Conform/Basic.lean`.  The figures are worked out from the words of the README, apart from
the model.  What the README says that the code does not do is at the end. -/

namespace PyDice.Conform

attribute [local instance] listRuntime
set_option maxRecDepth 100000

/-- The tables of the dice in two texts of a program, `d…`, are the same. -/
def SameDie (a b : Str) : Bool := match dst (quick a), dst (quick b) with
  | .ok x, .ok y => sameDict x.getResultMap y.getResultMap
  | _, _ => false

-- README.md:26-33
example : (sameSet (interpRolls quick [(t! "1d6")] (t! "stdout")) ((List.range 6).map fun n => some ((n : Int) + 1))) = true := by
  decide +kernel

-- README.md:37-48
example : session quick [([(t! "VAR a_name = d6 + 10"), (t! "VAR b_name = d6 - 10")], .max (t! "a_name") 16),
    ([(t! "VAR a_name = d6 + 10"), (t! "VAR b_name = d6 - 10")], .min (t! "b_name") (-9))] State.new = true := by
  decide +kernel

-- README.md:52-61
#guard session quick [([(t! "VAR save_roll = d20"), (t! "VAR burning_arch_damage = 10d6 + 10"),
    (t! "VAR pass_save = ( save_roll >= 10 ) "), (t! "VAR damage_half_on_save = burning_arch_damage // (pass_save + 1)"),
    (t! "damage_half_on_save")], .map (t! "stdout") [(10, 121), (11, 3025), (12, 29887), (13, 179685), (14, 771980), (15, 2564848), (16, 6901345), (17, 15485459), (18, 29550510), (19,
    48608230), (20, 69564724), (21, 87150835), (22, 95928921), (23, 92914250), (24, 79153030), (25, 59162323), (26, 38629325), (27, 21910374),
    (28, 10774225), (29, 4728295), (30, 2215180), (31, 1717560), (32, 2272292), (33, 3461515), (34, 5189800), (35, 7480847), (36, 10362330),
    (37, 13815360), (38, 17753670), (39, 22016700), (40, 26374095), (41, 30542490), (42, 34213815), (43, 37091340), (44, 38927790), (45,
    39559104), (46, 38927790), (47, 37091340), (48, 34213815), (49, 30542490), (50, 26374095), (51, 22016700), (52, 17753670), (53, 13815360),
    (54, 10362330), (55, 7480836), (56, 5189085), (57, 3451230), (58, 2195325), (59, 1331460), (60, 767052), (61, 417780), (62, 213840), (63,
    102060), (64, 44955), (65, 18018), (66, 6435), (67, 1980), (68, 495), (69, 90), (70, 9)])] State.new

-- README.md:69-73
example : ([(t! "4d10"), (t! "d6"), (t! "1d%"), (t! "30dF"), (t! "2d[1,1,2,3,5,8]")].all fun t => (quick t).isOk) = true := by
  decide +kernel
example : ([HasMap (dst (quick (t! "2d[1,1,2,3,5,8]"))) [(2, 4), (3, 4), (4, 5), (5, 2), (6, 5), (7, 2), (8, 2), (9, 4), (10, 3), (11, 2), (13, 2), (16, 1)]] : List Bool).all id = true := by
  decide +kernel

-- README.md:76, 78, 79
example : ([SameDie (t! "d6") (t! "1d6"), SameDie (t! "d%") (t! "d100"), SameDie (t! "dF") (t! "d[-1,0,1]")] : List Bool).all id = true := by
  decide +kernel

-- README.md:81-84
example : ([SameDie (t! "d[1,2,3,4,5]") (t! "d[1-5]"), SameDie (t! "d[1-5]") (t! "d5"),
    SameDie (t! "d[-5,-4,-3,-2]") (t! "d[-5--2]"), SameDie (t! "d[-5--2]") (t! "d[-2--5]"),
    SameDie (t! "d[1,1,1,1,1,1,1,8]") (t! "d[1*7, 8]"), SameDie (t! "d[1,1,1,2,2,3,3,4]") (t! "d[1-3*2,1,4]")] : List Bool).all id = true := by
  decide +kernel

-- README.md:90-93, the smaller terms by their tables, 16d%k10 by its ends
example : ([HasMap (dst (quick (t! "2d20k1"))) ((List.range 20).map fun (n : Nat) => ((n : Int) + 1, 2 * n + 1)),
    HasMap (dst (quick (t! "2dFd1"))) [((-1), 5), (0, 3), (1, 1)]] : List Bool).all id = true := by
  decide +kernel
#guard HasMap (dst (quick (t! "10d[-1,1]d5"))) [((-5), 638), ((-3), 210), ((-1), 120), (1, 45), (3, 10), (5, 1)]
#guard Gives (ext true (quick (t! "16d%k10"))) 1000 && Gives (ext false (quick (t! "16d%k10"))) 10

-- README.md:96-99
example : ([SameDie (t! "2d6k3") (t! "2d6"), HasDict (dst (quick (t! "2d6d2"))) [(0, 1)], HasDict (dst (quick (t! "2d6d3"))) [(0, 1)],
    HasDict (dst (quick (t! "2d6k0"))) [(0, 1)], SameDie (t! "2d6d0") (t! "2d6")] : List Bool).all id = true := by
  decide +kernel

-- README.md:103, 108, 112
example : (session quick [([(t! "VAR lower_case_name = 1")], .map (t! "lower_case_name") [(1, 1)]),
    ([(t! "VAR name = 1 + 2d3 - 3 * 4d2 // 5")], .map (t! "name") [((-1), 5), (0, 20), (1, 36), (2, 42), (3, 28), (4, 12), (5, 1)]),
    ([(t! "VAR out = 3 * ( 1 + 1d4 )")], .map (t! "out") [(6, 1), (9, 1), (12, 1), (15, 1)])] State.new) = true := by
  decide +kernel

-- README.md:116-123
example : (session quick [([(t! "VAR a = 1d4 == 1")], .map (t! "a") [(0, 3), (1, 1)]), ([(t! "VAR b = 1d4 != 1")], .map (t! "b") [(0, 1), (1, 3)]),
    ([(t! "VAR c = 1d4 <= 2")], .map (t! "c") [(0, 2), (1, 2)]), ([(t! "VAR d = 1d4 < 3")], .map (t! "d") [(0, 2), (1, 2)]),
    ([(t! "VAR e = 1d4 >= 2")], .map (t! "e") [(0, 1), (1, 3)]), ([(t! "VAR f = 1d4 > 2")], .map (t! "f") [(0, 2), (1, 2)]),
    ([(t! "VAR g = (1d4 >= 2) AND !(1d20 == 2)")], .map (t! "g") [(0, 23), (1, 57)]),
    ([(t! "VAR h = (1d4 >= 2) OR !(1d20 == 2)")], .map (t! "h") [(0, 1), (1, 79)])] State.new) = true := by
  decide +kernel

-- README.md:129, 133, 134
example : (session quick [([(t! "VAR abs = ABS( 1d6 - 1d6 )")], .map (t! "abs") [(0, 6), (1, 10), (2, 8), (3, 6), (4, 4), (5, 2)])] State.new) = true := by
  decide +kernel
#guard session quick [([(t! "MAX(4d7, 2d10)")], .max (t! "stdout") 28), ([(t! "MAX(4d7, 2d10)")], .min (t! "stdout") 4),
    ([(t! "MIN(50, d%)")], .map (t! "stdout") (((List.range 49).map fun (n : Nat) => ((n : Int) + 1, 1)) ++ [(50, 51)]))] State.new

/-! Two sentences of the README are not what happens: the trailing comma of line 80 (C15) and, in rolls, line 125 (C22). -/

example : Raises (quick (t! "2d[1,2,]")) .value = true := by decide +kernel
example : (sameSet (rolls (quick (t! "1 AND 2"))) [some 0]) = true := by decide +kernel

end PyDice.Conform
