import Verif.Plot.Layers
import Mathlib.Data.List.Infix
/-!
Model of `cis plot` from its options to the calls of matplotlib: the constructors and `__call__` of the plot classes
(plotting/genericplot.py, lineplot.py, scatterplot.py, heatmap.py, contourplot.py, histogram.py, histogram2d.py,
comparativescatter.py), the part of `basic_plot` after the choice of axes (plot.py:353-391), `add_color_bar` (plot.py:280-309),
`set_log_scales`, `format_plot` and `Plotter.__init__` (formatted_plot.py:7-41, 134-232). Layers and their options are those of
`Plot/Layers.lean`.

What is drawn is the list of calls made on the matplotlib axes (`Ev`), in order. Option values are the texts the user wrote; a
boolean option is false iff its text is `False`. A keyword passed as `None` is modelled as absent (matplotlib's own default).
Matplotlib is an arbitrary predicate `accepts` on the keywords of a call: a call it does not accept raises. Names, labels and the
kind of the axes are given (`Facts`); their choice is C89 and C91.
-/
set_option linter.unusedSectionVars false
set_option linter.unusedSimpArgs false
namespace Cis.Plot.Command
open Cis.Plot

/-- What a call of `basic_plot` knows about its data and axes: the default type of plot (C89), the labels of the axes and of the
data (`get_label`), the name of the data, whether the axes are longitude and latitude (genericplot.py:176-178), whether the map
is wider than tall (genericplot.py:143-145), on a rectangular projection (genericplot.py:63-68), whether x is a time and y a
pressure, whether x and the data have the same length (lineplot.py:30). -/
structure Facts where
  deflt : String
  xlabel : String
  ylabel : String
  dataLabel : String
  dataName : String
  lonLat : Bool
  wide : Bool
  rectangular : Bool
  xTime : Bool
  yPressure : Bool
  sameLength : Bool

/-- The calls on the axes and the figure that matter to the user. -/
inductive Ev where
  | draw (fn : String) (kw : Opts)
  | contourLabels
  | guideLine
  | xlabel (s : String)
  | ylabel (s : String)
  | title (s : String)
  | colourbar (kw : Opts) (label : String)
  | coastlines (colour : String)
  | mapTicks
  | timeAxis
  | invertY
  | legend
  | size (width height : Option String)
  | logScale (x y rescale : Bool)
  | grid
  | font (size : String)
  | limits (l : List (Option String))
  | mapLimits (l : List (Option String))
  | blueMarble
  | save (file : String)
  | showOnScreen

inductive Err where
  | layers (e : PlotErr) | invalidType | invalidStyle | dimensions | refused | taylor

/-- A boolean argument with default `d`. -/
def flag (d : Bool) : Option String → Bool
  | none => d
  | some s => decide (s ≠ "False")

/-- `if s:` for a text that may be `None`: the text if it is not empty. -/
def text : Option String → Option String
  | some s => if s = "" then none else some s
  | none => none

/-- `d[key] = value`, where a value `None` is the same as no value for matplotlib. -/
def setKey (key : String) (v : Option String) (d : Opts) : Opts := fun k => if k = key then v.or (d k) else d k

/-- The keyword arguments left over by a function with the named parameters `ps`. -/
def removeKeys (ps : List String) (d : Opts) : Opts := fun k => if k ∈ ps then none else d k

/-- The keyword parameters of `basic_plot` besides label and yaxis (plot.py:312-313). -/
def basicParams : List String := ["xaxis", "projection", "central_longitude"]

/-- The keyword parameters of `APlot.__init__` (genericplot.py:15-16). -/
def aplotParams : List String := ["color", "edgecolor", "itemstyle", "itemwidth"]

/-- The keyword parameters of `Generic2DPlot.__init__` (genericplot.py:112-114). -/
def genericParams : List String :=
  ["logv", "vstep", "colourbar", "cbarscale", "cbarorient", "cbarlabel", "coastlines", "coastlinescolour"]

/-- The keyword parameters of `ContourPlot.__init__` (contourplot.py:9-10). -/
def contourParams : List String := ["contnlevels", "vstep", "contlevels", "contlabel", "contwidth", "cont_label_kwargs"]

/-- The keyword parameters of `Histogram2D.__init__` (histogram2d.py:12-13). -/
def hist2dParams : List String :=
  ["logv", "vstep", "xbins", "ybins", "cbarscale", "cbarorient", "colourbar", "cbarlabel"]

variable {D A : Type}

/-- A call of a drawing function of matplotlib with keywords. -/
def draw (accepts : String → Opts → Bool) (fn : String) (kw : Opts) : Except Err Ev :=
  if accepts fn kw then .ok (.draw fn kw) else .error .refused

/-- `add_color_bar`, plot.py:280-309. -/
def addColourBar (vstep : Option String) (logv : Bool) (scale orient : Option String) (label : String) : Ev :=
  .colourbar (setKey "ticks" vstep (setKey "format" (if logv then some "LogFormatterMathtext" else none)
    (setKey "shrink" scale (setKey "orientation" orient (fun _ => none))))) label

/-- `Generic2DPlot.__call__`, genericplot.py:159-174, for an object made by `Generic2DPlot.__init__` (genericplot.py:129-157) with
the keywords `kw`; `label` is the label of the layer. -/
def generic2dCall (f : Facts) (label : String) (kw : Opts) : List Ev :=
  let orient := (kw "cbarorient").getD (if f.lonLat && f.wide then "horizontal" else "vertical")
  [.xlabel f.xlabel, .ylabel f.ylabel] ++
  (if flag true (kw "colourbar") then
    [addColourBar (kw "vstep") (flag false (kw "logv")) (kw "cbarscale") (some orient) ((text (kw "cbarlabel")).getD label)]
   else [.title label]) ++
  (if f.lonLat then
    (if flag true (kw "coastlines") then [.coastlines ((kw "coastlinescolour").getD "k")] else []) ++ [.mapTicks]
   else [])

/-- The keywords for matplotlib of a `Generic2DPlot` made with `kw` (genericplot.py:155-157; plot.py:374). -/
def generic2dMpl (f : Facts) (kw : Opts) : Opts :=
  setKey "transform" (if f.lonLat then some "PlateCarree" else none)
    (setKey "norm" (if flag false (kw "logv") then some "LogNorm" else none)
      (removeKeys (genericParams ++ aplotParams) kw))

/-- The check of `itemstyle` against the valid styles (lineplot.py:18-27, histogram.py:25-33). -/
def styled (valid : List String) (key : String) (style : Option String) (mpl : Opts) : Except Err Opts :=
  match text style with
  | none => .ok mpl
  | some s => if s ∈ valid then .ok (setKey key (some s) mpl) else .error .invalidStyle

/-- `LinePlot.__call__` (lineplot.py:10-36) and `GenericPlot.__init__`, `__call__` (genericplot.py:78-104). -/
def linePlot (accepts : String → Opts → Bool) (f : Facts) (label : String) (kw : Opts) : Except Err (List Ev) := do
  let mpl := setKey "label" (some ((text (some label)).getD f.dataName)) (removeKeys aplotParams kw)
  let mpl := setKey "linewidth" (kw "itemwidth") mpl
  let mpl ← styled ["solid", "dashed", "dashdot", "dotted"] "linestyle" (kw "itemstyle") mpl
  let mpl := setKey "color" (text (kw "color")) mpl
  let e ← if f.sameLength then draw accepts "plot" mpl else .error .dimensions
  .ok [e, .xlabel f.xlabel, .ylabel f.dataLabel]

/-- The translation of markers in `ScatterPlot.__call__` (scatterplot.py:14-24) and `ComparativeScatter.__call__`
(comparativescatter.py:25-35). -/
def markers (kw mpl : Opts) : Opts :=
  setKey "c" (kw "color") (setKey "edgecolors" (kw "edgecolor") (setKey "marker" (kw "itemstyle")
    (setKey "markersize" (kw "itemwidth") mpl)))

/-- `ScatterPlot.__call__`, scatterplot.py:9-30. -/
def scatterPlot (accepts : String → Opts → Bool) (f : Facts) (label : String) (kw : Opts) : Except Err (List Ev) := do
  let mpl := setKey "label" (some ((text (some label)).getD f.dataName)) (removeKeys aplotParams kw)
  let e ← draw accepts "plot" (markers kw mpl)
  .ok [e, .xlabel f.xlabel, .ylabel f.dataLabel]

/-- `ScatterPlot2D.__call__`, scatterplot.py:35-55. -/
def scatter2dPlot (accepts : String → Opts → Bool) (f : Facts) (label : String) (kw : Opts) : Except Err (List Ev) := do
  let mpl := generic2dMpl f kw
  let mpl := setKey "s" (kw "itemwidth") mpl
  let mpl := setKey "marker" (kw "itemstyle") mpl
  let mpl := setKey "edgecolors" (kw "edgecolor") mpl
  let e ← draw accepts "scatter" (setKey "c" (some "the data") mpl)
  .ok (e :: generic2dCall f label kw)

/-- `Heatmap.__call__`, heatmap.py:16-22. -/
def heatmapPlot (accepts : String → Opts → Bool) (f : Facts) (label : String) (kw : Opts) : Except Err (List Ev) := do
  let e ← draw accepts "pcolormesh" (generic2dMpl f kw)
  .ok (e :: generic2dCall f label kw)

/-- `ContourPlot.__init__`, `__call__` and `ContourfPlot` (contourplot.py:9-63). The levels are a positional argument (keyword
`levels` here). `vstep` is a parameter of `ContourPlot.__init__` and not passed on to `Generic2DPlot.__init__`, so `self.vstep` is
`None`. -/
def contourPlot (fn : String) (accepts : String → Opts → Bool) (f : Facts) (label : String) (kw : Opts) :
    Except Err (List Ev) := do
  let inner := removeKeys contourParams kw
  let levels := match kw "contlevels" with
    | some s => if s = "[]" then (kw "contnlevels").getD "7" else s
    | none => (kw "contnlevels").getD "7"
  let mpl := generic2dMpl f inner
  let mpl := setKey "colors" (kw "color") mpl
  let mpl := setKey "linewidths" (kw "contwidth") mpl
  let mpl := setKey "locator" (if flag false (kw "logv") then some "LogLocator" else none) mpl
  let e ← draw accepts fn (setKey "levels" (some levels) mpl)
  .ok (e :: ((if flag false (kw "contlabel") then [.contourLabels] else []) ++ generic2dCall f label inner))

/-- `Histogram.__init__`, `__call__`, histogram.py:10-48. -/
def histogramPlot (accepts : String → Opts → Bool) (f : Facts) (label : String) (kw : Opts) : Except Err (List Ev) := do
  let mpl := setKey "label" (some ((text (some label)).getD f.dataName)) (removeKeys ("xbins" :: aplotParams) kw)
  let mpl := setKey "bins" (some ((kw "xbins").getD "10")) mpl
  let mpl ← styled ["bar", "step", "stepfilled"] "histtype" (kw "itemstyle") mpl
  let e ← draw accepts "hist" (setKey "color" (text (kw "color")) mpl)
  .ok [e, .xlabel f.dataName, .ylabel "Frequency"]

/-- `ComparativeScatter.__call__`, comparativescatter.py:24-45. -/
def comparativePlot (accepts : String → Opts → Bool) (f : Facts) (label : String) (kw : Opts) : Except Err (List Ev) := do
  let mpl := setKey "label" (some label) (markers kw (removeKeys aplotParams kw))
  let e ← draw accepts "plot" mpl
  .ok [e, .guideLine, .xlabel f.xlabel, .ylabel f.dataName]

/-- `Histogram2D.__init__`, `__call__`, histogram2d.py:12-69. -/
def histogram2dPlot (accepts : String → Opts → Bool) (f : Facts) (_label : String) (kw : Opts) : Except Err (List Ev) := do
  let e ← draw accepts "pcolor" (removeKeys (hist2dParams ++ aplotParams) kw)
  .ok ([e, .guideLine, .xlabel f.xlabel, .ylabel f.dataName] ++
    (if flag true (kw "colourbar") then
      [addColourBar (kw "vstep") (flag false (kw "logv")) (kw "cbarscale") (kw "cbarorient")
        ((text (kw "cbarlabel")).getD "Frequency")] else []))

/-- The dictionary `plot_types`, plot.py:24-33, without `taylor`: as the type of a single layer it fails, since `Taylor`
needs a list of data (here: an error). -/
def plotType (how : String) : Option ((String → Opts → Bool) → Facts → String → Opts → Except Err (List Ev)) :=
  match how with
  | "contour" => some (contourPlot "contour")
  | "contourf" => some (contourPlot "contourf")
  | "heatmap" => some heatmapPlot
  | "line" => some linePlot
  | "scatter" => some scatterPlot
  | "scatter2d" => some scatter2dPlot
  | "comparativescatter" => some comparativePlot
  | "histogram" => some histogramPlot
  | "histogram2d" => some histogram2dPlot
  | _ => none

/-- The types that are subclasses of `Generic2DPlot` and can be maps. -/
def twoD (how : String) : Bool := how ∈ ["contour", "contourf", "heatmap", "scatter2d"]

/-- The type of plot of a call: the one given, else the default (plot.py:353). -/
def kindOf (f : Facts) (c : Call D A) : String := c.how.getD f.deflt

/-- `basic_plot` after the choice of axes, plot.py:353-391. -/
def basicPlot (accepts : String → Opts → Bool) (facts : Call D A → Facts) (c : Call D A) : Except Err (List Ev) :=
  let f := facts c
  let how := kindOf f c
  match plotType how with
  | none => .error .invalidType
  | some cls => do
      let evs ← cls accepts f (c.label.getD f.dataLabel) (removeKeys basicParams c.opts)
      .ok (evs ++
        (if f.xTime && !decide (how ∈ ["comparativescatter", "histogram2d", "histogram"]) then [.timeAxis] else []) ++
        (if f.yPressure then [.invertY] else []))

/-- Whether the plot of a call is a map (genericplot.py:103-104, 176-178). -/
def isMap (facts : Call D A → Facts) (c : Call D A) : Bool := twoD (kindOf (facts c) c) && (facts c).lonLat

/-- The layers of a plot, one after the other. -/
def basicPlots (accepts : String → Opts → Bool) (facts : Call D A → Facts) : List (Call D A) → Except Err (List Ev)
  | [] => .ok []
  | c :: t => do
      let a ← basicPlot accepts facts c
      let b ← basicPlots accepts facts t
      .ok (a ++ b)

/-- The named parameters of `Plotter.__init__` besides the data (formatted_plot.py:136-139). -/
def plotterParams : List String :=
  ["type", "output", "height", "width", "logx", "logy", "xmin", "xmax", "xstep", "ymin", "ymax", "ystep", "nasabluemarble",
   "grid", "xlabel", "ylabel", "title", "fontsize"]

/-- `if s is not None: f(s)`. -/
def given (mk : String → Ev) : Option String → List Ev
  | some s => [mk s]
  | none => []

/-- `format_plot`, formatted_plot.py:22-41. -/
def formatPlot (args : Opts) : List Ev :=
  (if flag false (args "grid") then [.grid] else []) ++ given .font (args "fontsize") ++
  given .xlabel (args "xlabel") ++ given .ylabel (args "ylabel") ++ given .title (args "title")

/-- `plot.set_log_scales` (genericplot.py:70-74, 180-185; formatted_plot.py:7-19). A map ignores it. -/
def logScales (map two : Bool) (args : Opts) : List Ev :=
  let x := flag false (args "logx")
  let y := flag false (args "logy")
  if map then [] else if x || y then [.logScale x y (!two)] else []

/-- The six limits and steps. -/
def limitArgs (args : Opts) : List (Option String) :=
  [args "xmin", args "xmax", args "xstep", args "ymin", args "ymax", args "ystep"]

/-- `output_to_file_or_screen`, formatted_plot.py:191-204. -/
def output (args : Opts) : Ev :=
  match args "output" with
  | some f => .save f
  | none => .showOnScreen

/-- The part of `Plotter.__init__` after drawing the layers (formatted_plot.py:188-206): `map` and `rect` describe the
plot returned, that is the last layer, `log` are the calls of its `set_log_scales` (none for `Taylor`, taylor.py:299-300). -/
def finish (map rect : Bool) (log : List Ev) (args : Opts) : List Ev :=
  [.size (args "width") (args "height")] ++ log ++ formatPlot args ++
  (if map then
    (if rect then [.mapLimits (limitArgs args)] else []) ++ (if flag false (args "nasabluemarble") then [.blueMarble] else [])
   else if args "type" = some "taylor" then [] else [.limits (limitArgs args)]) ++
  [output args]

/-- `Plotter.__init__`, formatted_plot.py:136-206, called by `plot_cmd` (cis_main.py:28-50). `groups` are the data read for each
datagroup with the datagroup's own options, `args` the options of the command, `start` the central longitude computed from the
data (C91). `taylorDraw` are the calls of a Taylor diagram (C86, C126). -/
def plotCommand (accepts : String → Opts → Bool) (facts : Call D A → Facts) (taylorDraw : TaylorCall D A → Except Err (List Ev))
    (fresh : A) (name : D → String) (start : Option String) (groups : List (List D × Opts)) (args : Opts) :
    Except Err (List Ev) :=
  let kwargs := removeKeys plotterParams args
  let kwargs := if (kwargs "central_longitude").isNone then setKey "central_longitude" start kwargs else kwargs
  match plotCmd fresh name groups (args "type") kwargs with
  | .error e => .error (.layers e)
  | .ok (.taylor t) => do
      let evs ← taylorDraw t
      .ok (evs ++ finish false false [] args)
  | .ok (.calls cs) => do
      let evs ← basicPlots accepts facts cs
      let legend : List Ev := if (groups.map Prod.fst).flatten.length ≠ 1 ∧ args "type" ≠ some "comparativescatter" ∧
        args "type" ≠ some "histogram2d" then [.legend] else []
      match cs.getLast? with
      | none => .error (.layers .noAxes)
      | some c => .ok (evs ++ legend ++
          finish (isMap facts c) (facts c).rectangular (logScales (isMap facts c) (twoD (kindOf (facts c) c)) args) args)

end Cis.Plot.Command
