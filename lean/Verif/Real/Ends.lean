import Verif.Proofs.CodedSafe

/-!
# The runs of the shipped sheets

Generated; the different runs from one station (by position) to the next one, the blocks between, and
whether the train ends there.
-/

namespace Verif.Real

/-- the runs in `base` -/
def baseEnds : List CodedNet.EndRun := [
  (9, 8, [58, 108, 55, 72, 135, 73, 74, 116], false),
  (8, 1, [82, 131, 65, 112], false),
  (1, 2, [], true),
  (0, 2, [104], false),
  (2, 1, [], false),
  (1, 5, [83, 101, 84, 121], false),
  (5, 6, [77, 144, 119, 40, 86, 142, 87, 126, 30, 90, 91, 92, 93, 127], false),
  (4, 2, [], false),
  (2, 1, [], true),
  (1, 2, [], false),
  (2, 0, [102], false),
  (6, 5, [78, 79, 80, 81, 120, 31, 94, 95, 143, 128, 41, 85, 145, 125], false),
  (5, 1, [76, 130, 133, 122], false),
  (2, 0, [103], false),
  (0, 2, [105], false),
  (1, 8, [138, 141, 96, 118], false),
  (8, 9, [137, 69, 70, 134, 71, 129, 54, 136, 57], false),
  (3, 1, [], false),
  (5, 6, [77, 144, 119, 40, 86, 142, 87, 126, 30, 90, 91, 92, 93, 127], true),
  (2, 4, [], true),
  (5, 7, [97], false),
  (8, 11, [146, 114], false),
  (11, 10, [107], false),
  (7, 5, [98], false),
  (10, 11, [107], false),
  (11, 8, [114, 146], false)]

/-- the runs in `gt` -/
def gtEnds : List CodedNet.EndRun := [
  (9, 8, [58, 108, 55, 72, 135, 73, 74, 116], false),
  (8, 1, [82, 131, 65, 112], false),
  (1, 2, [], true),
  (0, 2, [104], false),
  (2, 1, [], false),
  (1, 12, [83], false),
  (12, 5, [139, 132, 42], false),
  (5, 6, [77, 144, 119, 40, 86, 142, 87, 126, 30, 90, 91, 92, 93, 127], false),
  (4, 2, [], false),
  (2, 1, [], true),
  (1, 2, [], false),
  (2, 0, [102], false),
  (6, 5, [78, 79, 80, 81, 120, 31, 94, 95, 143, 128, 41, 85, 145, 125], false),
  (5, 12, [42, 132, 139], false),
  (12, 1, [122], false),
  (2, 0, [103], false),
  (0, 2, [105], false),
  (1, 8, [138, 141, 96, 118], false),
  (8, 9, [137, 69, 70, 134, 71, 129, 54, 136, 57], false),
  (3, 1, [], false),
  (5, 6, [77, 144, 119, 40, 86, 142, 87, 126, 30, 90, 91, 92, 93, 127], true),
  (2, 4, [], true),
  (5, 7, [97], false),
  (8, 11, [146, 114], false),
  (11, 10, [107], false),
  (7, 5, [98], false),
  (10, 11, [107], false),
  (11, 8, [114, 146], false)]

/-- the runs in `one` -/
def oneEnds : List CodedNet.EndRun := [
  (9, 8, [58, 108, 55, 72, 135, 73, 74, 116], false),
  (8, 1, [82, 131, 65, 112], false),
  (1, 2, [], true),
  (0, 2, [104], false),
  (2, 1, [], false),
  (1, 5, [83, 101, 84, 121], false),
  (5, 6, [77, 144, 119, 40, 86, 142, 87, 126, 30, 90, 91, 92, 93, 127], false),
  (4, 2, [], false),
  (2, 1, [], true),
  (1, 2, [], false),
  (2, 0, [104], false),
  (6, 5, [78, 79, 80, 81, 120, 31, 94, 95, 143, 128, 41, 85, 145, 125], false),
  (5, 1, [76, 130, 133, 122], false),
  (1, 8, [112, 65, 131, 82], false),
  (8, 9, [116, 74, 73, 135, 72, 55, 108, 58], false),
  (3, 1, [], false),
  (5, 6, [77, 144, 119, 40, 86, 142, 87, 126, 30, 90, 91, 92, 93, 127], true),
  (2, 4, [], true),
  (5, 7, [97], false),
  (8, 11, [146, 114], false),
  (11, 10, [107], false),
  (7, 5, [98], false),
  (10, 11, [107], false),
  (11, 8, [114, 146], false)]

/-- the runs in `onegt` -/
def onegtEnds : List CodedNet.EndRun := [
  (9, 8, [58, 108, 55, 72, 135, 73, 74, 116], false),
  (8, 1, [82, 131, 65, 112], false),
  (1, 2, [], true),
  (0, 2, [104], false),
  (2, 1, [], false),
  (1, 12, [83], false),
  (12, 5, [139, 132, 42], false),
  (5, 6, [77, 144, 119, 40, 86, 142, 87, 126, 30, 90, 91, 92, 93, 127], false),
  (4, 2, [], false),
  (2, 1, [], true),
  (1, 2, [], false),
  (2, 0, [104], false),
  (6, 5, [78, 79, 80, 81, 120, 31, 94, 95, 143, 128, 41, 85, 145, 125], false),
  (5, 12, [42, 132, 139], false),
  (12, 1, [122], false),
  (1, 8, [112, 65, 131, 82], false),
  (8, 9, [116, 74, 73, 135, 72, 55, 108, 58], false),
  (3, 1, [], false),
  (5, 6, [77, 144, 119, 40, 86, 142, 87, 126, 30, 90, 91, 92, 93, 127], true),
  (2, 4, [], true),
  (5, 7, [97], false),
  (8, 11, [146, 114], false),
  (11, 10, [107], false),
  (7, 5, [98], false),
  (10, 11, [107], false),
  (11, 8, [114, 146], false)]

/-- the runs in `ko1` -/
def ko1Ends : List CodedNet.EndRun := [
  (0, 1, [83, 101, 84, 121], false),
  (1, 2, [77, 144, 119, 40, 86, 142, 87, 126, 30, 90, 91, 92, 93, 127], true),
  (1, 2, [77, 144, 119, 40, 86, 142, 87, 126, 30, 90, 91, 92, 93, 127], false),
  (2, 1, [78, 79, 80, 81, 120, 31, 94, 95, 143, 128, 41, 85, 145, 125], false),
  (1, 0, [76, 130, 133, 122], true)]

/-- the runs in `ko2` -/
def ko2Ends : List CodedNet.EndRun := [
  (0, 1, [83, 101, 84, 121], false),
  (1, 2, [77, 144, 119], false),
  (2, 3, [86, 142, 87, 126], false),
  (3, 4, [90, 91, 92, 93, 127], true),
  (3, 4, [90, 91, 92, 93, 127], false),
  (4, 3, [78, 79, 80, 81, 120], false),
  (3, 2, [126, 87, 142, 86], false),
  (2, 1, [85, 145, 125], false),
  (1, 0, [76, 130, 133, 122], true)]

/-- the runs in `ko3` -/
def ko3Ends : List CodedNet.EndRun := [
  (0, 1, [83, 101, 84, 121], false),
  (1, 2, [77, 144, 119], false),
  (2, 3, [86, 142, 87, 126], false),
  (3, 4, [90, 91, 92, 93, 127], true),
  (3, 4, [90, 91, 92, 93, 127], false),
  (4, 3, [127, 93, 92, 91, 90], false),
  (3, 2, [126, 87, 142, 86], false),
  (2, 1, [85, 145, 125], false),
  (1, 0, [121, 84, 101, 83], true)]

end Verif.Real
