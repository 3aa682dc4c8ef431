import Verif.Model.StratFig
import Verif.Model.Rounding
import Mathlib.Data.Int.Log

/-!
# Tables of the ice percentages of Figures 7 and 8

`ice_pct_fig7` and `ice_pct_fig8` (`/repo/notebooks/figure_scripts/plot_figs.py` 1213-1232): the table that
`plot_stratigraphy` writes is read back and shown with rounded percentages.  A shown number stands for its
text (`'{:.3g}%'`), the colours of the cells and the letters of the figure (C120) are left out.
-/

namespace MoonPIES

variable {K : Type} [Field K] [LinearOrder K] [IsStrictOrderedRing K] [FloorRing K]

/-- `round(2)` (plot_figs.py:1217, 1226, 1229): two decimals, ties to even. -/
def dec2 (x : K) : K := (roundHalfEven (x * 100) : K) / 100

/-- The number written by `'{:.3g}'` (plot_figs.py:1218, 1227, 1230): three significant digits, ties to
even. -/
def sig3 (x : K) : K :=
  if x = 0 then 0
  else
    let e := Int.log 10 |x|
    (roundHalfEven (x * 10 ^ (2 - e)) : K) / 10 ^ (2 - e)

/-- A cell as shown; `none` is NaN and is shown as empty text (`na_rep=''`). -/
def showPct (cell : Option K) : Option K := cell.map fun x => sig3 (dec2 x)

/-- A column of the table as read: run, seed and cold trap are texts. -/
abbrev PctCol (K : Type) := (String × String × String) × List (Option K)

/-- `pd.DataFrame(out_icepct).to_csv(...)` (plotting.py:165-167) read back with `header=[0, 1, 2]`
(plot_figs.py:1216, 1225): short columns are filled up with NaN, the seeds become texts.  A table without
columns cannot be read (`EmptyDataError` or `ParserError`, both a `ValueError`). -/
def readPct (t : List ((String × Int × String) × List (Option K))) : Except PyErr (List (PctCol K)) :=
  if t.isEmpty then .error .valueError
  else
    let n := (t.map (·.2.length)).foldl max 0
    .ok (t.map fun c =>
      ((c.1.1, toString c.1.2.1, c.1.2.2), c.2 ++ List.replicate (n - c.2.length) none))

/-- `ice_pct_fig7` (plot_figs.py:1213-1220) with the defaults of `strat_cols_seeds` (763-766). -/
def icePctFig7 (draw : List (StratRow K) → Except PyErr (Drawn K))
    (sortDepth : List (CleanRow K) → List (CleanRow K))
    (load : String → Int → String → Option (List (StratRow K))) : Except PyErr (List (PctCol K)) := do
  let fig ← stratFigure draw sortDepth load ["moonpies"] [13, 8, 1] ["Faustini", "Haworth", "Cabeus"]
  let df ← readPct fig.icepct
  .ok (df.map fun c => (c.1, c.2.map showPct))

/-- `df[run][seed]` (plot_figs.py:1226, 1229): the columns below the two names. -/
def subPct (df : List (PctCol K)) (run seed : String) :
    Except PyErr (List (String × List (Option K))) :=
  if (df.filter fun c => c.1.1 = run).isEmpty then .error .keyError
  else if ((df.filter fun c => c.1.1 = run).filter fun c => c.1.2.1 = seed).isEmpty then .error .keyError
  else .ok (((df.filter fun c => c.1.1 = run).filter fun c => c.1.2.1 = seed).map fun c => (c.1.2.2, c.2))

/-- `ice_pct_fig8` (plot_figs.py:1222-1232) with the defaults of `strat_cols_bsed` (738-740); `corder` is
the list of cold traps. -/
def icePctFig8 (draw : List (StratRow K) → Except PyErr (Drawn K))
    (sortDepth : List (CleanRow K) → List (CleanRow K))
    (load : String → Int → String → Option (List (StratRow K))) (corder : List String) :
    Except PyErr (List (String × List (Option K)) × List (String × List (Option K))) := do
  let fig ← stratFigure draw sortDepth load ["moonpies", "no_bsed"] [7] corder
  let df ← readPct fig.icepct
  let top ← subPct df "moonpies" "7"
  let bot ← subPct df "no_bsed" "7"
  .ok (top.map fun c => (c.1, c.2.map showPct), bot.map fun c => (c.1, c.2.map showPct))

end MoonPIES
