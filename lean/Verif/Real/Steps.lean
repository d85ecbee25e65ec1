import Verif.Real.Net

/-!
# The steps from block to block in the shipped sheets
-/

namespace Verif.Real

/-- the steps of the trains on `net` -/
def netSteps : List (Nat × Nat) := [(1, 77), (2, 76), (3, 97), (4, 76), (5, 99), (6, 98), (7, 116), (7, 137), (8, 82), (8, 146), (9, 146), (10, 112), (10, 138), (11, 49), (13, 49), (14, 83), (15, 53), (15, 61), (15, 62), (15, 63), (16, 83), (16, 112), (16, 138), (17, 104), (18, 106), (19, 104), (19, 105), (20, 123), (21, 107), (22, 114), (23, 110), (24, 107), (25, 75), (25, 89), (26, 58), (27, 58), (29, 109), (30, 90), (31, 94), (32, 78), (33, 78), (34, 78), (35, 78), (38, 113), (39, 49), (39, 53), (40, 86), (41, 85), (48, 14), (49, 11), (49, 15), (49, 66), (49, 102), (49, 103), (49, 104), (52, 14), (52, 16), (53, 102), (53, 103), (53, 104), (54, 136), (55, 72), (55, 108), (57, 25), (57, 29), (58, 25), (58, 29), (58, 108), (61, 10), (61, 16), (62, 10), (65, 112), (65, 131), (66, 49), (67, 17), (68, 10), (69, 70), (70, 134), (71, 129), (72, 55), (72, 135), (73, 74), (73, 135), (74, 73), (74, 116), (76, 130), (77, 144), (78, 79), (79, 80), (80, 81), (81, 120), (82, 7), (82, 8), (82, 131), (83, 101), (84, 121), (85, 145), (86, 142), (87, 126), (88, 19), (90, 91), (91, 92), (92, 93), (93, 127), (94, 95), (95, 143), (96, 118), (97, 5), (98, 4), (100, 6), (101, 84), (102, 18), (103, 20), (104, 18), (104, 20), (104, 48), (104, 49), (104, 52), (105, 48), (105, 49), (107, 22), (107, 23), (108, 55), (108, 58), (109, 27), (110, 24), (111, 26), (112, 15), (112, 39), (112, 65), (114, 21), (114, 146), (116, 8), (116, 74), (117, 33), (117, 34), (118, 7), (118, 9), (119, 40), (120, 31), (121, 1), (121, 3), (122, 11), (122, 13), (122, 15), (124, 26), (125, 2), (126, 30), (127, 35), (127, 38), (128, 41), (129, 54), (130, 133), (131, 65), (131, 82), (133, 122), (134, 71), (135, 72), (135, 73), (136, 57), (137, 69), (138, 141), (141, 96), (142, 87), (143, 128), (144, 119), (145, 125), (146, 8), (146, 114)]

/-- the steps of the trains on `netGt` -/
def netGtSteps : List (Nat × Nat) := [(5, 99), (6, 98), (7, 116), (7, 137), (8, 82), (8, 146), (9, 146), (10, 112), (10, 138), (11, 49), (13, 49), (14, 83), (15, 53), (15, 61), (15, 62), (15, 63), (16, 83), (16, 112), (16, 138), (17, 104), (18, 106), (19, 104), (19, 105), (20, 123), (21, 107), (22, 114), (23, 110), (24, 107), (25, 75), (25, 89), (26, 58), (27, 58), (29, 109), (30, 90), (31, 94), (32, 78), (33, 78), (34, 78), (35, 78), (38, 113), (39, 49), (39, 53), (40, 86), (41, 85), (42, 47), (42, 132), (47, 42), (47, 77), (47, 97), (48, 14), (49, 11), (49, 15), (49, 66), (49, 102), (49, 103), (49, 104), (52, 14), (52, 16), (53, 102), (53, 103), (53, 104), (54, 136), (55, 72), (55, 108), (57, 25), (57, 29), (58, 25), (58, 29), (58, 108), (61, 10), (61, 16), (62, 10), (65, 112), (65, 131), (66, 49), (67, 17), (68, 10), (69, 70), (70, 134), (71, 129), (72, 55), (72, 135), (73, 74), (73, 135), (74, 73), (74, 116), (77, 144), (78, 79), (79, 80), (80, 81), (81, 120), (82, 7), (82, 8), (82, 131), (83, 101), (85, 145), (86, 142), (87, 126), (88, 19), (90, 91), (91, 92), (92, 93), (93, 127), (94, 95), (95, 143), (96, 118), (97, 5), (98, 47), (100, 6), (101, 139), (102, 18), (103, 20), (104, 18), (104, 20), (104, 48), (104, 49), (104, 52), (105, 48), (105, 49), (107, 22), (107, 23), (108, 55), (108, 58), (109, 27), (110, 24), (111, 26), (112, 15), (112, 39), (112, 65), (114, 21), (114, 146), (116, 8), (116, 74), (117, 33), (117, 34), (118, 7), (118, 9), (119, 40), (120, 31), (122, 11), (122, 13), (122, 15), (124, 26), (125, 47), (126, 30), (127, 35), (127, 38), (128, 41), (129, 54), (131, 65), (131, 82), (132, 42), (132, 139), (133, 122), (134, 71), (135, 72), (135, 73), (136, 57), (137, 69), (138, 141), (139, 132), (139, 133), (141, 96), (142, 87), (143, 128), (144, 119), (145, 125), (146, 8), (146, 114)]

/-- the steps of the trains on `netKo` -/
def netKoSteps : List (Nat × Nat) := [(1, 77), (2, 76), (3, 97), (4, 76), (10, 83), (14, 83), (16, 83), (30, 90), (31, 94), (33, 78), (34, 78), (38, 113), (40, 86), (41, 85), (76, 130), (77, 144), (78, 79), (79, 80), (80, 81), (81, 120), (83, 101), (84, 121), (85, 145), (86, 142), (87, 126), (90, 91), (91, 92), (92, 93), (93, 127), (94, 95), (95, 143), (98, 4), (101, 84), (117, 33), (119, 40), (120, 31), (121, 1), (121, 3), (122, 13), (122, 15), (122, 39), (125, 2), (126, 30), (127, 35), (127, 38), (128, 41), (130, 133), (133, 122), (142, 87), (143, 128), (144, 119), (145, 125)]

/-- the steps of the trains on `netKoR` -/
def netKoRSteps : List (Nat × Nat) := [(1, 77), (2, 76), (2, 121), (3, 97), (4, 76), (4, 121), (10, 83), (14, 83), (16, 83), (30, 90), (31, 126), (33, 78), (34, 78), (36, 127), (38, 113), (40, 86), (41, 85), (76, 130), (77, 144), (78, 79), (79, 80), (80, 81), (81, 120), (83, 13), (83, 15), (83, 39), (83, 101), (84, 101), (84, 121), (85, 145), (86, 41), (86, 142), (87, 126), (87, 142), (90, 31), (90, 91), (91, 90), (91, 92), (92, 91), (92, 93), (93, 92), (93, 127), (98, 4), (101, 83), (101, 84), (117, 33), (117, 36), (119, 40), (120, 31), (121, 1), (121, 3), (121, 84), (122, 13), (122, 15), (122, 39), (125, 2), (126, 30), (126, 87), (127, 35), (127, 38), (127, 93), (130, 133), (133, 122), (142, 86), (142, 87), (144, 119), (145, 125)]

end Verif.Real
