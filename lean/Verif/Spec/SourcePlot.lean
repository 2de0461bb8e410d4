import Verif.Source.Plot
import Verif.FloatPlot
/-!
# The calls that draw a picture

Written down from the source, independently of the texts in `Verif/Source/Text.lean`.
-/
namespace PyDice.Source

/-- Make calls and return the image, or raise. -/
def drawing (r : Res (List LibCall)) : PlotM (Val PObj) := fun before => do let calls ← r; return (.obj .image, before ++ calls)

/-- Running the function on the arguments makes the calls listed by `r` and returns the image, or raises as `r` does. -/
def Draws (W : World PObj PlotM) (f : PyFun) (args : List (Val PObj)) (r : Res (List LibCall)) : Prop := PyFun.run W f args = drawing r

/-- The average handed to `_make_histogram`, which may be left out. -/
def avgV {Ω : Type} : Option ℚ → List (Val Ω)
  | none => []
  | some a => [.flt a]

/-- The calls that turn the figure into an image (`probability_distribution.py:153-157, 177-181`). -/
def saveCalls (format : String) : List LibCall :=
  [⟨["io", "BytesIO"], []⟩,
   ⟨["pyplot", "savefig"], [.obj .buffer, .kwv "format" (.str format.toList)]⟩,
   ⟨["buffer", "seek"], [.int 0]⟩,
   ⟨["Image", "open"], [.obj .buffer]⟩]

/-- The calls for the grid and the labels (`probability_distribution.py:141-143, 173-175`). -/
def axisCalls : List LibCall :=
  [⟨["axis", "grid"], [.bool true, .kwv "linestyle" (.str "-.".toList)]⟩,
   ⟨["axis", "set_ylabel"], [.str "odds".toList]⟩,
   ⟨["axis", "set_xlabel"], [.str "outcome".toList]⟩]

/-- The calls of `_make_histogram` (`probability_distribution.py:139-157`). -/
def histCalls (fs : ℚ → Str) (p : HistPic) : List LibCall :=
  [⟨["pyplot", "subplots"], []⟩,
   ⟨["axis", "hist"], [.list (p.xs.map .int), .kwv "weights" (.list (p.ys.map PyNum.val)), .kwv "bins" (.list (p.bins.map .flt))]⟩] ++
  axisCalls ++
  (match p.line with
    | none => []
    | some (a, top) => [⟨["axis", "plot"], [.list [.flt a, .flt a], .list [.int 0, .flt top], .str "-r".toList, .kwv "lw" (.int 2),
        .kwv "label" (.str ("Average = ".toList ++ fs a))]⟩]) ++
  saveCalls "tiff"

/-- The calls of `_make_line_plot` (`probability_distribution.py:170-181`). -/
def lineCalls (p : LinePic) (one two : Str) : List LibCall :=
  [⟨["pyplot", "subplots"], []⟩,
   ⟨["axis", "plot"], [.list (p.xs.map .int), .list (p.ys.map PyNum.val), .str "b".toList, .kwv "label" (.str one)]⟩,
   ⟨["axis", "plot"], [.list (p.xs'.map .int), .list (p.ys'.map PyNum.val), .str "r".toList, .kwv "label" (.str two)]⟩] ++
  axisCalls ++ [⟨["axis", "legend"], []⟩] ++ saveCalls "png"

/-- The numbers that `_make_histogram` hands to matplotlib, ints and floats not told apart. -/
def HistPic.picture (p : HistPic) : Picture := ⟨⟨p.xs, p.ys.map PyNum.q, p.bins⟩, p.line.map fun l => ([l.1, l.1], [0, l.2])⟩

/-- The numbers that `_make_line_plot` hands to matplotlib. -/
def LinePic.pair (p : LinePic) : (List Int × List ℚ) × (List Int × List ℚ) := ((p.xs, p.ys.map PyNum.q), (p.xs', p.ys'.map PyNum.q))

end PyDice.Source
