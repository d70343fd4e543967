import Verif.Model.UseCase
import Verif.Model.Api

/-! # The example input files

Written by `tools/gen_examples.py` from `/repo/ramp/example/input_file_1.py`, `input_file_2.py` and `input_file_3.py`: for each user category
the new user and the calls for its appliances, in order; the object number `k` is the `k`-th appliance of the user.  Calls for different
users do not interact.  Decimal literals are read as exact fractions; `num_days` of a user without use case is 366 (`core.py:819-824`). -/

set_option autoImplicit false

namespace Ramp

/-- The user category of `input_file_1.py:22` and the calls of `input_file_1.py:83-120`. -/
def file1HI : User × List ApiOp := ({ userName := "high income", numUsers := 11, userPreference := 3 }, [
  .add 366 { app := { number := 6, power := .number 7, numWindows := 2, funcTime := 120, timeFractionRandomVariability := 1/5, funcCycle := 10, name := "indoor_bulb" } },
  .windows 0 { window1 := some (1170, 1440), window2 := some (0, 30), randomVarW := 7/20 },
  .add 366 { app := { number := 2, power := .number 13, numWindows := 2, funcTime := 600, timeFractionRandomVariability := 1/5, funcCycle := 10, name := "outdoor_bulb" } },
  .windows 1 { window1 := some (0, 330), window2 := some (1170, 1440), randomVarW := 7/20 },
  .add 366 { app := { number := 2, power := .number 60, numWindows := 3, funcTime := 180, timeFractionRandomVariability := 1/10, funcCycle := 5, name := "TV" } },
  .windows 2 { window1 := some (720, 900), window2 := some (1170, 1440), randomVarW := 7/20, window3 := some (0, 60) },
  .add 366 { app := { number := 1, power := .number 8, numWindows := 3, funcTime := 60, timeFractionRandomVariability := 1/10, funcCycle := 5, name := "DVD" } },
  .windows 3 { window1 := some (720, 900), window2 := some (1170, 1440), randomVarW := 7/20, window3 := some (0, 60) },
  .add 366 { app := { number := 1, power := .number 8, numWindows := 3, funcTime := 120, timeFractionRandomVariability := 1/10, funcCycle := 5, name := "antenna" } },
  .windows 4 { window1 := some (720, 900), window2 := some (1170, 1440), randomVarW := 7/20, window3 := some (0, 60) },
  .add 366 { app := { number := 5, power := .number 2, numWindows := 2, funcTime := 300, timeFractionRandomVariability := 1/5, funcCycle := 5, name := "phone_charger" } },
  .windows 5 { window1 := some (1110, 1440), window2 := some (0, 30), randomVarW := 7/20 },
  .add 366 { app := { number := 1, power := .number 200, numWindows := 1, funcTime := 1440, timeFractionRandomVariability := 0, funcCycle := 30, fixed := "yes", fixedCycle := 3, name := "freezer" } },
  .windows 6 { window1 := some (0, 1440), window2 := some (0, 0) },
  .cycle 6 1 { p1 := 200, t1 := 20, p2 := 5, t2 := 10 },
  .cycle 6 2 { p1 := 200, t1 := 15, p2 := 5, t2 := 15 },
  .cycle 6 3 { p1 := 200, t1 := 10, p2 := 5, t2 := 20 },
  .behaviour 6 (480, 1200) (0, 0) (300, 479) (0, 0) (0, 299) (1201, 1440),
  .add 366 { app := { number := 1, power := .number 200, numWindows := 1, funcTime := 1440, timeFractionRandomVariability := 0, funcCycle := 30, fixed := "yes", fixedCycle := 3, name := "freezer2" } },
  .windows 7 { window1 := some (0, 1440), window2 := some (0, 0) },
  .cycle 7 1 { p1 := 200, t1 := 20, p2 := 5, t2 := 10 },
  .cycle 7 2 { p1 := 200, t1 := 15, p2 := 5, t2 := 15 },
  .cycle 7 3 { p1 := 200, t1 := 10, p2 := 5, t2 := 20 },
  .behaviour 7 (480, 1200) (0, 0) (300, 479) (0, 0) (0, 299) (1201, 1440),
  .add 366 { app := { number := 1, power := .number 50, numWindows := 3, funcTime := 30, timeFractionRandomVariability := 1/10, funcCycle := 1, occasionalUse := 33/100, name := "mixer" } },
  .windows 8 { window1 := some (420, 480), window2 := some (660, 750), randomVarW := 7/20, window3 := some (1140, 1200) }])

/-- The user category of `input_file_1.py:25` and the calls of `input_file_1.py:123-154`. -/
def file1HMI : User × List ApiOp := ({ userName := "higher middle income", numUsers := 38, userPreference := 3 }, [
  .add 366 { app := { number := 5, power := .number 7, numWindows := 2, funcTime := 120, timeFractionRandomVariability := 1/5, funcCycle := 10, name := "indoor_bulb" } },
  .windows 0 { window1 := some (1170, 1440), window2 := some (0, 30), randomVarW := 7/20 },
  .add 366 { app := { number := 2, power := .number 13, numWindows := 2, funcTime := 600, timeFractionRandomVariability := 1/5, funcCycle := 10, name := "outdoor_bulb" } },
  .windows 1 { window1 := some (0, 330), window2 := some (1170, 1440), randomVarW := 7/20 },
  .add 366 { app := { number := 1, power := .number 60, numWindows := 2, funcTime := 120, timeFractionRandomVariability := 1/10, funcCycle := 5, name := "TV" } },
  .windows 2 { window1 := some (1170, 1440), window2 := some (0, 60), randomVarW := 7/20 },
  .add 366 { app := { number := 1, power := .number 8, numWindows := 2, funcTime := 40, timeFractionRandomVariability := 1/10, funcCycle := 5, name := "DVD" } },
  .windows 3 { window1 := some (1170, 1440), window2 := some (0, 60), randomVarW := 7/20 },
  .add 366 { app := { number := 1, power := .number 8, numWindows := 2, funcTime := 80, timeFractionRandomVariability := 1/10, funcCycle := 5, name := "antenna" } },
  .windows 4 { window1 := some (1170, 1440), window2 := some (0, 60), randomVarW := 7/20 },
  .add 366 { app := { number := 1, power := .number 36, numWindows := 2, funcTime := 60, timeFractionRandomVariability := 1/10, funcCycle := 5, name := "radio" } },
  .windows 5 { window1 := some (390, 450), window2 := some (1140, 1260), randomVarW := 7/20 },
  .add 366 { app := { number := 4, power := .number 2, numWindows := 2, funcTime := 300, timeFractionRandomVariability := 1/5, funcCycle := 5, name := "phone_charger" } },
  .windows 6 { window1 := some (1110, 1440), window2 := some (0, 30), randomVarW := 7/20 },
  .add 366 { app := { number := 1, power := .number 200, numWindows := 1, funcTime := 1440, timeFractionRandomVariability := 0, funcCycle := 30, fixed := "yes", fixedCycle := 3, name := "freezer" } },
  .windows 7 { window1 := some (0, 1440), window2 := some (0, 0) },
  .cycle 7 1 { p1 := 200, t1 := 20, p2 := 5, t2 := 10 },
  .cycle 7 2 { p1 := 200, t1 := 15, p2 := 5, t2 := 15 },
  .cycle 7 3 { p1 := 200, t1 := 10, p2 := 5, t2 := 20 },
  .behaviour 7 (480, 1200) (0, 0) (300, 479) (0, 0) (0, 299) (1201, 1440),
  .add 366 { app := { number := 1, power := .number 50, numWindows := 3, funcTime := 30, timeFractionRandomVariability := 1/10, funcCycle := 1, occasionalUse := 33/100, name := "mixer" } },
  .windows 8 { window1 := some (420, 450), window2 := some (660, 750), randomVarW := 7/20, window3 := some (1020, 1170) }])

/-- The user category of `input_file_1.py:28` and the calls of `input_file_1.py:157-176`. -/
def file1LMI : User × List ApiOp := ({ userName := "lower middle income", numUsers := 34, userPreference := 3 }, [
  .add 366 { app := { number := 3, power := .number 7, numWindows := 2, funcTime := 120, timeFractionRandomVariability := 1/5, funcCycle := 10, name := "indoor_bulb" } },
  .windows 0 { window1 := some (1170, 1440), window2 := some (0, 30), randomVarW := 7/20 },
  .add 366 { app := { number := 2, power := .number 13, numWindows := 2, funcTime := 600, timeFractionRandomVariability := 1/5, funcCycle := 10, name := "outdoor_bulb" } },
  .windows 1 { window1 := some (0, 330), window2 := some (1170, 1440), randomVarW := 7/20 },
  .add 366 { app := { number := 1, power := .number 60, numWindows := 3, funcTime := 90, timeFractionRandomVariability := 1/10, funcCycle := 5, name := "TV" } },
  .windows 2 { window1 := some (450, 660), window2 := some (720, 840), randomVarW := 7/20, window3 := some (1170, 1440) },
  .add 366 { app := { number := 1, power := .number 8, numWindows := 3, funcTime := 30, timeFractionRandomVariability := 1/10, funcCycle := 5, name := "DVD" } },
  .windows 3 { window1 := some (450, 660), window2 := some (720, 840), randomVarW := 7/20, window3 := some (1170, 1440) },
  .add 366 { app := { number := 1, power := .number 8, numWindows := 3, funcTime := 60, timeFractionRandomVariability := 1/10, funcCycle := 5, name := "antenna" } },
  .windows 4 { window1 := some (450, 660), window2 := some (720, 840), randomVarW := 7/20, window3 := some (1170, 1440) },
  .add 366 { app := { number := 4, power := .number 2, numWindows := 1, funcTime := 300, timeFractionRandomVariability := 1/5, funcCycle := 5, name := "phone_charger" } },
  .windows 5 { window1 := some (1020, 1440), window2 := some (0, 0), randomVarW := 7/20 },
  .add 366 { app := { number := 1, power := .number 50, numWindows := 2, funcTime := 30, timeFractionRandomVariability := 1/10, funcCycle := 1, occasionalUse := 33/100, name := "mixer" } },
  .windows 6 { window1 := some (660, 750), window2 := some (1110, 1200), randomVarW := 7/20 }])

/-- The user category of `input_file_1.py:31` and the calls of `input_file_1.py:179-195`. -/
def file1LI : User × List ApiOp := ({ userName := "low income", numUsers := 45, userPreference := 3 }, [
  .add 366 { app := { number := 2, power := .number 7, numWindows := 2, funcTime := 120, timeFractionRandomVariability := 1/5, funcCycle := 10, name := "indoor_bulb" } },
  .windows 0 { window1 := some (1170, 1440), window2 := some (0, 30), randomVarW := 7/20 },
  .add 366 { app := { number := 1, power := .number 13, numWindows := 2, funcTime := 600, timeFractionRandomVariability := 1/5, funcCycle := 10, name := "outdoor_bulb" } },
  .windows 1 { window1 := some (0, 330), window2 := some (1170, 1440), randomVarW := 7/20 },
  .add 366 { app := { number := 1, power := .number 60, numWindows := 3, funcTime := 90, timeFractionRandomVariability := 1/10, funcCycle := 5, name := "TV" } },
  .windows 2 { window1 := some (750, 840), window2 := some (1170, 1440), randomVarW := 7/20, window3 := some (0, 30) },
  .add 366 { app := { number := 1, power := .number 8, numWindows := 3, funcTime := 30, timeFractionRandomVariability := 1/10, funcCycle := 5, name := "DVD" } },
  .windows 3 { window1 := some (750, 840), window2 := some (1170, 1440), randomVarW := 7/20, window3 := some (0, 30) },
  .add 366 { app := { number := 1, power := .number 8, numWindows := 3, funcTime := 60, timeFractionRandomVariability := 1/10, funcCycle := 5, name := "antenna" } },
  .windows 4 { window1 := some (750, 840), window2 := some (1170, 1440), randomVarW := 7/20, window3 := some (0, 30) },
  .add 366 { app := { number := 2, power := .number 2, numWindows := 1, funcTime := 300, timeFractionRandomVariability := 1/5, funcCycle := 5, name := "phone_charger" } },
  .windows 5 { window1 := some (1080, 1440), window2 := some (0, 0), randomVarW := 7/20 }])

/-- The user category of `input_file_1.py:34` and the calls of `input_file_1.py:198-240`. -/
def file1Hospital : User × List ApiOp := ({ userName := "hospital", numUsers := 1 }, [
  .add 366 { app := { number := 12, power := .number 7, numWindows := 2, funcTime := 690, timeFractionRandomVariability := 1/5, funcCycle := 10, name := "indoor_bulb" } },
  .windows 0 { window1 := some (480, 720), window2 := some (870, 1440), randomVarW := 7/20 },
  .add 366 { app := { number := 1, power := .number 13, numWindows := 2, funcTime := 690, timeFractionRandomVariability := 1/5, funcCycle := 10, name := "outdoor_bulb" } },
  .windows 1 { window1 := some (0, 330), window2 := some (1050, 1440), randomVarW := 7/20 },
  .add 366 { app := { number := 8, power := .number 2, numWindows := 2, funcTime := 300, timeFractionRandomVariability := 1/5, funcCycle := 5, name := "phone_charger" } },
  .windows 2 { window1 := some (480, 720), window2 := some (900, 1440), randomVarW := 7/20 },
  .add 366 { app := { number := 1, power := .number 150, numWindows := 1, funcTime := 1440, timeFractionRandomVariability := 0, funcCycle := 30, fixed := "yes", fixedCycle := 3, name := "fridge" } },
  .windows 3 { window1 := some (0, 1440), window2 := some (0, 0) },
  .cycle 3 1 { p1 := 150, t1 := 20, p2 := 5, t2 := 10 },
  .cycle 3 2 { p1 := 150, t1 := 15, p2 := 5, t2 := 15 },
  .cycle 3 3 { p1 := 150, t1 := 10, p2 := 5, t2 := 20 },
  .behaviour 3 (580, 1200) (0, 0) (420, 579) (0, 0) (0, 419) (1201, 1440),
  .add 366 { app := { number := 1, power := .number 150, numWindows := 1, funcTime := 1440, timeFractionRandomVariability := 0, funcCycle := 30, fixed := "yes", fixedCycle := 3, name := "fridge2" } },
  .windows 4 { window1 := some (0, 1440), window2 := some (0, 0) },
  .cycle 4 1 { p1 := 150, t1 := 20, p2 := 5, t2 := 10 },
  .cycle 4 2 { p1 := 150, t1 := 15, p2 := 5, t2 := 15 },
  .cycle 4 3 { p1 := 150, t1 := 10, p2 := 5, t2 := 20 },
  .behaviour 4 (580, 1200) (0, 0) (420, 579) (0, 0) (0, 419) (1201, 1440),
  .add 366 { app := { number := 1, power := .number 150, numWindows := 1, funcTime := 1440, timeFractionRandomVariability := 1/10, funcCycle := 30, fixed := "yes", fixedCycle := 3, name := "fridge3" } },
  .windows 5 { window1 := some (0, 1440), window2 := some (0, 0) },
  .cycle 5 1 { p1 := 150, t1 := 20, p2 := 5, t2 := 10 },
  .cycle 5 2 { p1 := 150, t1 := 15, p2 := 5, t2 := 15 },
  .cycle 5 3 { p1 := 150, t1 := 10, p2 := 5, t2 := 20 },
  .behaviour 5 (580, 1200) (0, 0) (420, 579) (0, 0) (0, 419) (1201, 1440),
  .add 366 { app := { number := 2, power := .number 50, numWindows := 2, funcTime := 300, timeFractionRandomVariability := 1/10, funcCycle := 10, name := "PC" } },
  .windows 6 { window1 := some (480, 720), window2 := some (1050, 1440), randomVarW := 7/20 },
  .add 366 { app := { number := 1, power := .number 50, numWindows := 2, funcTime := 60, timeFractionRandomVariability := 1/10, funcCycle := 1, occasionalUse := 33/100, name := "mixer" } },
  .windows 7 { window1 := some (480, 720), window2 := some (1050, 1440), randomVarW := 7/20 }])

/-- The user category of `input_file_1.py:37` and the calls of `input_file_1.py:243-276`. -/
def file1School : User × List ApiOp := ({ userName := "school", numUsers := 1 }, [
  .add 366 { app := { number := 8, power := .number 7, numWindows := 1, funcTime := 60, timeFractionRandomVariability := 1/5, funcCycle := 10, name := "indoor_bulb" } },
  .windows 0 { window1 := some (1020, 1080), window2 := some (0, 0), randomVarW := 7/20 },
  .add 366 { app := { number := 6, power := .number 13, numWindows := 1, funcTime := 60, timeFractionRandomVariability := 1/5, funcCycle := 10, name := "outdoor_bulb" } },
  .windows 1 { window1 := some (1020, 1080), window2 := some (0, 0), randomVarW := 7/20 },
  .add 366 { app := { number := 5, power := .number 2, numWindows := 2, funcTime := 180, timeFractionRandomVariability := 1/5, funcCycle := 5, name := "phone_charger" } },
  .windows 2 { window1 := some (510, 750), window2 := some (810, 1080), randomVarW := 7/20 },
  .add 366 { app := { number := 18, power := .number 50, numWindows := 2, funcTime := 210, timeFractionRandomVariability := 1/10, funcCycle := 10, name := "PC" } },
  .windows 3 { window1 := some (510, 750), window2 := some (810, 1080), randomVarW := 7/20 },
  .add 366 { app := { number := 1, power := .number 20, numWindows := 2, funcTime := 30, timeFractionRandomVariability := 1/10, funcCycle := 5, name := "printer" } },
  .windows 4 { window1 := some (510, 750), window2 := some (810, 1080), randomVarW := 7/20 },
  .add 366 { app := { number := 1, power := .number 200, numWindows := 1, funcTime := 1440, timeFractionRandomVariability := 0, funcCycle := 30, fixed := "yes", fixedCycle := 3, name := "freezer" } },
  .windows 5 { window1 := some (0, 1440) },
  .cycle 5 1 { p1 := 200, t1 := 20, p2 := 5, t2 := 10 },
  .cycle 5 2 { p1 := 200, t1 := 15, p2 := 5, t2 := 15 },
  .cycle 5 3 { p1 := 200, t1 := 10, p2 := 5, t2 := 20 },
  .behaviour 5 (580, 1200) (0, 0) (510, 579) (0, 0) (0, 509) (1201, 1440),
  .add 366 { app := { number := 1, power := .number 60, numWindows := 2, funcTime := 120, timeFractionRandomVariability := 1/10, funcCycle := 5, occasionalUse := 1/2, name := "TV" } },
  .windows 6 { window1 := some (510, 750), window2 := some (810, 1080), randomVarW := 7/20 },
  .add 366 { app := { number := 1, power := .number 8, numWindows := 2, funcTime := 120, timeFractionRandomVariability := 1/10, funcCycle := 5, occasionalUse := 1/2, name := "DVD" } },
  .windows 7 { window1 := some (510, 750), window2 := some (810, 1080), randomVarW := 7/20 },
  .add 366 { app := { number := 1, power := .number 150, numWindows := 2, funcTime := 90, timeFractionRandomVariability := 1/10, funcCycle := 5, occasionalUse := 33/100, name := "stereo" } },
  .windows 8 { window1 := some (510, 750), window2 := some (810, 1080), randomVarW := 7/20 }])

/-- The user category of `input_file_1.py:40` and the calls of `input_file_1.py:71-79`. -/
def file1Publiclighting : User × List ApiOp := ({ userName := "public lighting", numUsers := 1 }, [
  .add 366 { app := { number := 12, power := .number 40, numWindows := 2, funcTime := 310, timeFractionRandomVariability := 1/10, funcCycle := 300, fixed := "yes", flat := "yes", name := "lights" } },
  .windows 0 { window1 := some (0, 336), window2 := some (1110, 1440), randomVarW := 1/5 },
  .add 366 { app := { number := 25, power := .number 150, numWindows := 2, funcTime := 310, timeFractionRandomVariability := 1/10, funcCycle := 300, fixed := "yes", flat := "yes", name := "lights2" } },
  .windows 1 { window1 := some (0, 336), window2 := some (1110, 1440), randomVarW := 1/5 }])

/-- The user category of `input_file_1.py:43` and the calls of `input_file_1.py:49-68`. -/
def file1Church : User × List ApiOp := ({ userName := "church", numUsers := 3 }, [
  .add 366 { app := { number := 10, power := .number 26, numWindows := 1, funcTime := 210, timeFractionRandomVariability := 1/5, funcCycle := 60, fixed := "yes", flat := "yes", name := "indoor_bulb" } },
  .windows 0 { window1 := some (1200, 1440), window2 := some (0, 0), randomVarW := 1/10 },
  .add 366 { app := { number := 7, power := .number 26, numWindows := 1, funcTime := 150, timeFractionRandomVariability := 1/5, funcCycle := 60, fixed := "yes", flat := "yes", name := "outdoor_bulb" } },
  .windows 1 { window1 := some (1200, 1440), window2 := some (0, 0), randomVarW := 1/10 },
  .add 366 { app := { number := 1, power := .number 100, numWindows := 1, funcTime := 150, timeFractionRandomVariability := 1/5, funcCycle := 60, name := "speaker" } },
  .windows 2 { window1 := some (1200, 1350), window2 := some (0, 0), randomVarW := 1/10 }])

/-- The user list of `input_file_1.py`. -/
def inputFile1 : List (User × List ApiOp) := [file1HI, file1HMI, file1LMI, file1LI, file1Hospital, file1School, file1Publiclighting, file1Church]

/-- The user category of `input_file_2.py:21` and the calls of `input_file_2.py:25-35`. The table read from
`shower_P.csv` is a parameter. -/
def file2HH (power : List ℚ) : User × List ApiOp := ({ userName := "generic households", numUsers := 1 }, [
  .add 366 { app := { number := 1, power := .series power, numWindows := 2, funcTime := 15, timeFractionRandomVariability := 1/10, funcCycle := 3, thermalPVar := 1/5, name := "shower" } },
  .windows 0 { window1 := some (390, 540), window2 := some (1080, 1200), randomVarW := 1/5 }])

/-- The user list of `input_file_2.py`. -/
def inputFile2 (power : List ℚ) : List (User × List ApiOp) := [file2HH power]

/-- The user category of `input_file_3.py:20` and the calls of `input_file_3.py:27-170`. -/
def file3HH : User × List ApiOp := ({ userName := "generic household", numUsers := 1, userPreference := 3 }, [
  .add 366 { app := { number := 1, power := .number 1800, numWindows := 2, funcTime := 70, timeFractionRandomVariability := 3/20, funcCycle := 60, fixedCycle := 1, thermalPVar := 1/5, prefIndex := 1, name := "lunch1_soup" } },
  .windows 0 { window1 := some (720, 900), window2 := some (0, 0), randomVarW := 3/20 },
  .cycle 0 1 { p1 := 1800, t1 := 10, p2 := 750, t2 := 60, rc := 3/20 },
  .behaviour 0 (720, 900) (0, 0) (0, 0) (0, 0) (0, 0) (0, 0),
  .add 366 { app := { number := 1, power := .number 1800, numWindows := 2, funcTime := 25, timeFractionRandomVariability := 3/20, funcCycle := 20, fixedCycle := 1, thermalPVar := 1/5, prefIndex := 2, name := "lunch2_rice" } },
  .windows 1 { window1 := some (720, 900), window2 := some (0, 0), randomVarW := 3/20 },
  .cycle 1 1 { p1 := 1800, t1 := 10, p2 := 750, t2 := 15, rc := 3/20 },
  .behaviour 1 (720, 900) (0, 0) (0, 0) (0, 0) (0, 0) (0, 0),
  .add 366 { app := { number := 1, power := .number 1200, numWindows := 2, funcTime := 3, timeFractionRandomVariability := 1/5, funcCycle := 3, thermalPVar := 1/5, prefIndex := 2, name := "lunch2_egg" } },
  .windows 2 { window1 := some (720, 900), window2 := some (0, 0), randomVarW := 3/20 },
  .add 366 { app := { number := 1, power := .number 1800, numWindows := 2, funcTime := 10, timeFractionRandomVariability := 3/20, funcCycle := 5, fixedCycle := 1, thermalPVar := 1/5, prefIndex := 2, name := "lunch2_planato" } },
  .windows 3 { window1 := some (720, 900), window2 := some (0, 0), randomVarW := 3/20 },
  .cycle 3 1 { p1 := 1800, t1 := 5, p2 := 1200, t2 := 5, rc := 3/20 },
  .behaviour 3 (720, 900) (0, 0) (0, 0) (0, 0) (0, 0) (0, 0),
  .add 366 { app := { number := 1, power := .number 1200, numWindows := 2, funcTime := 7, timeFractionRandomVariability := 3/20, funcCycle := 3, thermalPVar := 1/5, prefIndex := 2, name := "lunch2_meat" } },
  .windows 4 { window1 := some (720, 900), window2 := some (0, 0), randomVarW := 3/20 },
  .add 366 { app := { number := 1, power := .number 1800, numWindows := 2, funcTime := 45, timeFractionRandomVariability := 1/5, funcCycle := 30, fixedCycle := 1, thermalPVar := 1/5, prefIndex := 3, name := "lunch3_beansnrice" } },
  .windows 5 { window1 := some (720, 900), window2 := some (0, 0), randomVarW := 3/20 },
  .cycle 5 1 { p1 := 1800, t1 := 10, p2 := 750, t2 := 35, rc := 1/5 },
  .behaviour 5 (720, 900) (0, 0) (0, 0) (0, 0) (0, 0) (0, 0),
  .add 366 { app := { number := 1, power := .number 1200, numWindows := 2, funcTime := 10, timeFractionRandomVariability := 1/5, funcCycle := 5, thermalPVar := 1/5, prefIndex := 3, name := "lunch3_meat" } },
  .windows 6 { window1 := some (720, 900), window2 := some (0, 0), randomVarW := 3/20 },
  .add 366 { app := { number := 1, power := .number 1800, numWindows := 1, funcTime := 25, timeFractionRandomVariability := 3/20, funcCycle := 10, fixedCycle := 1, thermalPVar := 1/5, prefIndex := 0, name := "lunch_yuca" } },
  .windows 7 { window1 := some (780, 840), window2 := some (0, 0), randomVarW := 3/20 },
  .cycle 7 1 { p1 := 1800, t1 := 10, p2 := 750, t2 := 15, rc := 3/20 },
  .behaviour 7 (720, 900) (0, 0) (0, 0) (0, 0) (0, 0) (0, 0),
  .add 366 { app := { number := 1, power := .number 1800, numWindows := 1, funcTime := 65, timeFractionRandomVariability := 3/20, funcCycle := 50, fixedCycle := 1, thermalPVar := 1/5, prefIndex := 0, name := "breakfast_huminta" } },
  .windows 8 { window1 := some (360, 540), window2 := some (0, 0), randomVarW := 3/20 },
  .cycle 8 1 { p1 := 1800, t1 := 5, p2 := 750, t2 := 60, rc := 3/20 },
  .behaviour 8 (360, 540) (0, 0) (0, 0) (0, 0) (0, 0) (0, 0),
  .add 366 { app := { number := 1, power := .number 1800, numWindows := 1, funcTime := 15, timeFractionRandomVariability := 3/20, funcCycle := 10, fixedCycle := 1, thermalPVar := 1/5, prefIndex := 0, name := "breakfast_bread" } },
  .windows 9 { window1 := some (360, 540), window2 := some (0, 0), randomVarW := 3/20 },
  .cycle 9 1 { p1 := 1800, t1 := 10, p2 := 1200, t2 := 5, rc := 3/20 },
  .behaviour 9 (360, 540) (0, 0) (0, 0) (0, 0) (0, 0) (0, 0),
  .add 366 { app := { number := 1, power := .number 1800, numWindows := 1, funcTime := 5, timeFractionRandomVariability := 3/20, funcCycle := 2, thermalPVar := 1/5, prefIndex := 0, name := "break_fast_coffee" } },
  .windows 10 { window1 := some (360, 540), window2 := some (0, 0), randomVarW := 3/20 },
  .add 366 { app := { number := 1, power := .number 1800, numWindows := 1, funcTime := 30, timeFractionRandomVariability := 3/10, funcCycle := 2, thermalPVar := 1/5, prefIndex := 0, name := "mate" } },
  .windows 11 { window1 := some (420, 1200), window2 := some (0, 0), randomVarW := 3/20 }])

/-- The user list of `input_file_3.py`. -/
def inputFile3 : List (User × List ApiOp) := [file3HH]

end Ramp
