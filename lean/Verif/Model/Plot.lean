import Verif.Model.QI

/-! # Model of the plotting functions of `rockphypy/QI.py`

pyplot is a global list of open figures, the last of which is the current one.  A figure is the
list of things drawn on its (single) pair of axes, in order.  What the caller sees is the data and
labels handed to matplotlib; line widths, marker sizes, transparency, figure sizes and the picture
matplotlib makes of the data are not modelled.  An exception leaves the figures as they are at that
moment. -/

namespace RockPhy.QI

/-- One thing drawn on a pair of axes. -/
inductive Draw (α : Type)
  | line (x y : List α) (fmt : String)
  | points (x y c : List α) (vmin vmax : α) (cmap : String)
  | mesh {m n : Nat} (x : Fin m → α) (y : Fin n → α) (z : Fin n → Fin m → α) (cmap : String)
  | contour {m n : Nat} (x : Fin m → α) (y : Fin n → α) (z : Fin n → Fin m → α)
  | colorbar (label : String)
  | xlabel (s : String)
  | ylabel (s : String)
  | xlim (a b : α)
  | ylim (a b : α)
  | grid

/-- What has been drawn on one figure. -/
abbrev Figure (α : Type) := List (Draw α)

/-- A computation that draws: it changes the open figures and may raise. -/
abbrev Plt (α β : Type) := ExceptT PyErr (StateM (List (Figure α))) β

section pyplot

variable {α : Type}

/-- `plt.subplots()` and `plt.figure()`: open a new figure and make it the current one; returns its
position. -/
def subplots : Plt α Nat := do
  let figs : List (Figure α) ← get
  set (figs ++ [[]])
  return figs.length

/-- Position of the figure that `plt.plot`, `plt.scatter`, ... draw on; without any figure pyplot
opens one. -/
def gcf : Plt α Nat := do
  let figs : List (Figure α) ← get
  if figs.length = 0 then subplots else return figs.length - 1

/-- Draw on the axes of the figure at position `i`. -/
def drawOn (i : Nat) (d : Draw α) : Plt α Unit :=
  modify fun figs : List (Figure α) => figs.modify i (· ++ [d])

/-- `ax.plot(x, y, fmt)`; `ValueError` when the lengths differ. -/
def axPlot (i : Nat) (x y : List α) (fmt : String) : Plt α Unit :=
  if x.length = y.length then drawOn i (.line x y fmt) else throw .ValueError

/-- `plt.scatter(x, y, c=c, vmin=vmin, vmax=vmax, cmap=cmap)`; `ValueError` when the sizes differ
(a colour array of three or four entries, which matplotlib may read as one colour, is treated like
any other wrong size). -/
def pltScatter (x y c : List α) (vmin vmax : α) (cmap : String) : Plt α Unit := do
  let i ← gcf
  if x.length = y.length ∧ x.length = c.length then drawOn i (.points x y c vmin vmax cmap)
  else throw .ValueError

/-- A call of pyplot that draws `d` on the current figure. -/
def pltDraw (d : Draw α) : Plt α Unit := do
  let i ← gcf
  drawOn i d

end pyplot

/-- A `QI` object, QI.py:24-46. -/
structure Obj (α : Type) where
  Vp : List α
  phi : List α
  Vsh : Option (List α)
  Vs : Option (List α)
  den : Option (List α)
  eff_stress : Option (List α)
  TVD : Option (List α)

/-- `QI.__init__`, QI.py:29-46; `kwargs` are the keyword arguments by name.  Names other than the
five that are looked up are accepted and dropped. -/
def init {α : Type} (Vp phi : List α) (kwargs : String → Option (List α)) : Obj α where
  Vp := Vp
  phi := phi
  Vsh := kwargs "Vsh"
  Vs := kwargs "Vs"
  den := kwargs "den"
  eff_stress := kwargs "eff_stress"
  TVD := kwargs "TVD"

variable {α : Type} [PyNum α]

/-- `QI.screening_plot`, QI.py:217-249.  `1-self.Vsh` raises `TypeError` when no `Vsh` was given. -/
def screening_plot (self : Obj α) (phi vp1 vp2 vp3 : List α) (cmap : String) : Plt α Nat := do
  let ax ← subplots
  axPlot ax phi vp3 "-k"
  axPlot ax phi vp1 "--k"
  axPlot ax phi vp2 "-k"
  drawOn ax (.ylabel "Vp")
  drawOn ax (.xlabel "Porosity")
  drawOn ax .grid
  match self.Vsh with
  | none => throw .TypeError
  | some Vsh => pltScatter self.phi self.Vp (Vsh.map fun v => 1 - v) 0 1 cmap
  pltDraw (.colorbar "$\\rm V_{Sand}$")
  return ax

/-- The result of `kde2d`: density on a grid, and the grid. -/
structure Kde (α : Type) where
  m : Nat
  n : Nat
  density : Fin m → Fin n → α
  gridx : Fin m → α
  gridy : Fin n → α

/-- The entries of a two dimensional array, row by row. -/
def flat {m n : Nat} (d : Fin m → Fin n → α) : List α :=
  (List.ofFn fun i => List.ofFn (d i)).flatten

/-- `QI.normalize`, QI.py:252-262, on a two dimensional array. -/
def normalize2 {m n : Nat} (d : Fin m → Fin n → α) : Except PyErr (Fin m → Fin n → α) := do
  let den_max ← npmax (flat d)
  return fun i j => 1 - (den_max - d i j) / den_max

/-- The density drawn by `QI.kde_plot`, QI.py:301-304 and 313-316: normalised, and set to zero
where it is below `0.0001`. -/
def kde_density (k : Kde α) : Except PyErr (Fin k.m → Fin k.n → α) := do
  let d ← normalize2 k.density
  return fun i j => if PyNum.lt (d i j) 0.0001 then 0 else d i j

/-- The lines 300-309 and 312-321 of `QI.kde_plot`, which differ in the velocity used and the
label. -/
def kde_map (kde2d : List α → Option (List α) → Nat → Except PyErr (Kde α)) (ax : Nat)
    (phi : List α) (V : Option (List α)) (n : Nat) (label : String) : Plt α Unit := do
  let k ← liftM (kde2d phi V n)
  let d ← liftM (kde_density k)
  pltDraw (.mesh k.gridx k.gridy (fun j i => d i j) "cmap_kde")
  pltDraw (.colorbar "KDE Normalized")
  pltDraw (.contour k.gridx k.gridy (fun j i => d i j))
  drawOn ax (.ylabel label)

/-- `QI.kde_plot`, QI.py:264-323.  `kde2d` of the package kde_diffusion is a parameter.  The
argument `cmap` is not used by the source either.  Any other `vels` draws no density. -/
def kde_plot (kde2d : List α → Option (List α) → Nat → Except PyErr (Kde α)) (self : Obj α)
    (phi v1 v2 v3 : List α) (_cmap : String) (vels : String) (n : Nat) : Plt α Nat := do
  let ax ← subplots
  axPlot ax phi v3 "-k"
  axPlot ax phi v1 "--k"
  axPlot ax phi v2 "-k"
  drawOn ax (.xlabel "Porosity")
  drawOn ax (.xlim (-0.007) 0.407)
  if vels = "Vp" then kde_map kde2d ax self.phi (some self.Vp) n "Vp"
  else if vels = "Vs" then kde_map kde2d ax self.phi self.Vs n "Vs"
  drawOn ax .grid
  return ax

/-- `QI.cst_plot`, QI.py:378-448; returns the figure. -/
def cst_plot (Dqz Kqz Gqz Dsh Ksh Gsh Dc Kc Gc Db Kb phib : α) (phib_p : List α)
    (phi_c sigma vsh Cn : α) (scheme : Int) (f : α) : Plt α Nat := do
  let K0 := (← liftM (EM.VRH [vsh, 1 - vsh] [Ksh, Kqz])).2.2
  let G0 := (← liftM (EM.VRH [vsh, 1 - vsh] [Gsh, Gqz])).2.2
  let D0 := Dsh * vsh + Dqz * (1 - vsh)
  let rows ← liftM (screening Dqz Kqz Gqz Dsh Ksh Gsh Dc Kc Gc Db Kb phib phi_c sigma vsh scheme f Cn)
  let phi := rows.map fun r => r.1
  let vp1 := rows.map fun r => r.2.1
  let vp3 := rows.map fun r => r.2.2.2.1
  let ax ← subplots
  axPlot ax phi vp3 "-k"
  axPlot ax phi vp1 "-k"
  for i in phib_p do
    let v ← liftM (phi.mapM fun p =>
      cst_vels i K0 D0 G0 p phi_c Cn Kc Gc Db Kb scheme vsh Dsh Dqz Dc)
    axPlot ax phi (v.map Prod.fst) "--k"
  drawOn ax (.ylabel "Vp (m/s)")
  drawOn ax (.xlabel "porosity")
  drawOn ax .grid
  return ax

/-- `QI.cement_diag_plot`, QI.py:576-640. -/
def cement_diag_plot (self : Obj α) (vcem : List α)
    (Dqz Kqz Gqz Dsh Ksh Gsh Dc Kc Gc Db Kb phib : α) (phib_p : List α)
    (phi_c sigma vsh Cn : α) (scheme : Int) (f : α) : Plt α Nat := do
  let fig ← cst_plot Dqz Kqz Gqz Dsh Ksh Gsh Dc Kc Gc Db Kb phib phib_p phi_c sigma vsh Cn scheme f
  pltScatter self.phi self.Vp vcem 0 0.1 "cmap_cem"
  pltDraw (.colorbar "$\\rm V_{CEM}$")
  pltDraw (.xlabel "Porosity")
  pltDraw (.ylim 1500 6500)
  pltDraw (.xlim (-0.007) 0.507)
  return fig

/-- `QI.plot_rpt`, QI.py:643-699, for `Kdry`, `Gdry` given as one value per entry of `phi`.
`plt.plot(IP.T, PS.T)` draws one line per porosity; `IP[:,-1]` raises `IndexError` when `sw` is
empty. -/
def plot_rpt (rock : List (α × α × α)) (K0 D0 Kb Db Khc Dhc : α) (sw : List α) : Plt α Nat := do
  let table := rock.map fun r => sw.map fun s => rpt_entry r.1 r.2.1 K0 D0 Kb Db Khc Dhc r.2.2 s
  let fig ← subplots
  for row in table do
    pltDraw (.line (row.map Prod.fst) (row.map Prod.snd) "-ok")
  if sw = [] then throw .IndexError
  let last := table.filterMap fun row => row.getLast?
  pltDraw (.line (last.map Prod.fst) (last.map Prod.snd) "-ok")
  pltDraw (.xlabel "Acoustic Impedance")
  pltDraw (.ylabel "Vp/Vs")
  return fig

end RockPhy.QI
