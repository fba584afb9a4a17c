import Verif.Py.Syntax

/-! # The text of `rockphypy/QI.py`

Written by `tools/source.py`; do not edit. -/

namespace RockPhy.Source.QI

open RockPhy.Py

/-- `QI.__init__`, QI.py:29-46. -/
def init : Fun where
  params := [⟨n!"Vp", .none⟩, ⟨n!"phi", .none⟩, ⟨n!"kwargs", .none⟩]
  body :=
  (.ofList [
    set! "self.Vp" := v!"Vp",
    set! "self.phi" := v!"phi",
    set! "self.Vsh" := (.meth v!"kwargs" n!"get" (.ofList [(.str "Vsh")])),
    set! "self.Vs" := (.meth v!"kwargs" n!"get" (.ofList [(.str "Vs")])),
    set! "self.den" := (.meth v!"kwargs" n!"get" (.ofList [(.str "den")])),
    set! "self.eff_stress" := (.meth v!"kwargs" n!"get" (.ofList [(.str "eff_stress")])),
    set! "self.TVD" := (.meth v!"kwargs" n!"get" (.ofList [(.str "TVD")]))])

/-- `QI.matrix_modulus`, QI.py:47-88. -/
def matrix_modulus : Fun where
  params := [⟨n!"vsh", .none⟩, ⟨n!"phi_c", .none⟩, ⟨n!"phi_0", .none⟩, ⟨n!"M_sh", .none⟩, ⟨n!"M_g",
    .none⟩, ⟨n!"M_c", .none⟩]
  body :=
  (.ofList [
    set! "fc" := v!"phi_c" - v!"phi_0",
    set! "vsh_s" := v!"vsh" / (1 - v!"phi_0"),
    set! "fgs" := (1 - v!"phi_c" - v!"vsh") / (1 - v!"phi_0"),
    set! "fcs" := v!"fc" / (1 - v!"phi_0"),
    .ite (.cmp .eq v!"vsh" 0)
      (.ofList [
        set! "volume" := (.attr c!"np.vstack"[t![v!"fgs", v!"fcs"]] n!"T"),
        set! "M" := c!"np.array"[l![v!"M_g", v!"M_c"]],
        set! "_", "_", "M_mat" := c!"EM.VRH"[v!"volume", v!"M"],
        .ret v!"M_mat"])
      (.ofList [
        set! "volume" := (.attr c!"np.vstack"[t![v!"vsh_s", v!"fgs", v!"fcs"]] n!"T"),
        set! "M" := c!"np.array"[l![v!"M_sh", v!"M_g", v!"M_c"]],
        set! "_", "_", "M_mat" := c!"EM.VRH"[v!"volume", v!"M"],
        .ret v!"M_mat"])])

/-- `QI.den_matrix`, QI.py:90-124. -/
def den_matrix : Fun where
  params := [⟨n!"vsh", .none⟩, ⟨n!"phi_c", .none⟩, ⟨n!"phi_0", .none⟩, ⟨n!"den_sh", .none⟩,
    ⟨n!"den_g", .none⟩, ⟨n!"den_c", .none⟩]
  body :=
  (.ofList [
    set! "fc" := v!"phi_c" - v!"phi_0",
    set! "vsh_s" := v!"vsh" / (1 - v!"phi_0"),
    set! "fgs" := (1 - v!"phi_c" - v!"vsh") / (1 - v!"phi_0"),
    set! "fcs" := v!"fc" / (1 - v!"phi_0"),
    set! "volume" := (.attr c!"np.vstack"[t![v!"vsh_s", v!"fgs", v!"fcs"]] n!"T"),
    set! "D" := c!"np.array"[l![v!"den_sh", v!"den_g", v!"den_c"]],
    set! "den_mat", "_", "_" := c!"EM.VRH"[v!"volume", v!"D"],
    .ret v!"den_mat"])

/-- `QI.screening`, QI.py:126-216. -/
def screening : Fun where
  params := [⟨n!"Dqz", .none⟩, ⟨n!"Kqz", .none⟩, ⟨n!"Gqz", .none⟩, ⟨n!"Dsh", .none⟩, ⟨n!"Ksh",
    .none⟩, ⟨n!"Gsh", .none⟩, ⟨n!"Dc", .none⟩, ⟨n!"Kc", .none⟩, ⟨n!"Gc", .none⟩, ⟨n!"Db", .none⟩,
    ⟨n!"Kb", .none⟩, ⟨n!"phib_p", .none⟩, ⟨n!"phi_c", .none⟩, ⟨n!"sigma", .none⟩, ⟨n!"vsh", .none⟩,
    ⟨n!"scheme", .none⟩, ⟨n!"f", .none⟩, ⟨n!"Cn", .none⟩]
  body :=
  (.ofList [
    set! "_", "_", "K0" := c!"EM.VRH"[c!"np.array"[l![v!"vsh", 1 - v!"vsh"]],
      c!"np.array"[l![v!"Ksh", v!"Kqz"]]],
    set! "_", "_", "G0" := c!"EM.VRH"[c!"np.array"[l![v!"vsh", 1 - v!"vsh"]],
      c!"np.array"[l![v!"Gsh", v!"Gqz"]]],
    set! "D0" := v!"Dsh" * v!"vsh" + v!"Dqz" * (1 - v!"vsh"),
    set! "phi" := c!"np.linspace"[1e-7, v!"phi_c", 100],
    set! "Kdry1", "Gdry1" := c!"GM.softsand"[v!"K0", v!"G0", v!"phi", v!"phi_c", v!"Cn", v!"sigma",
      v!"f"],
    set! "Kdry3", "Gdry3" := c!"GM.contactcement"[v!"K0", v!"G0", v!"Kc", v!"Gc", v!"phi",
      v!"phi_c", v!"Cn", v!"scheme"],
    set! "K_mat" := c!"QI.matrix_modulus"[v!"vsh", v!"phi_c", v!"phi", v!"Ksh", v!"Kqz", v!"Kc"],
    set! "Den_mat" := c!"QI.den_matrix"[v!"vsh", v!"phi_c", v!"phi", v!"Dsh", v!"Dqz", v!"Dc"],
    set! "Ksat1", "Gsat1" := c!"Fluid.Gassmann"[v!"Kdry1", v!"Gdry1", v!"K0", v!"Kb", v!"phi"],
    set! "Ksat3", "Gsat3" := c!"Fluid.Gassmann"[v!"Kdry3", v!"Gdry3", v!"K_mat", v!"Kb", v!"phi"],
    set! "rho" := v!"D0" * (1 - v!"phi") + v!"Db" * v!"phi",
    set! "rho_cst" := v!"Den_mat" * (1 - v!"phi") + v!"Db" * v!"phi",
    set! "vp1", "vs1" := c!"utils.V"[v!"Ksat1", v!"Gsat1", v!"rho"],
    set! "vp3", "vs3" := c!"utils.V"[v!"Ksat3", v!"Gsat3", v!"rho_cst"],
    .assign (.idx n!"vp3" (.ofList [(.cmp .lt v!"phi" v!"phib_p")])) (v!"np.nan"),
    .assign (.idx n!"vs3" (.ofList [(.cmp .lt v!"phi" v!"phib_p")])) (v!"np.nan"),
    set! "Kdry2", "Gdry2" := c!"GM.MUHS"[v!"K0", v!"G0", v!"Kc", v!"Gc", v!"phi", v!"phib_p",
      v!"phi_c", v!"Cn", v!"scheme"],
    set! "Ksat2", "Gsat2" := c!"Fluid.Gassmann"[v!"Kdry2", v!"Gdry2", v!"K0", v!"Kb", v!"phi"],
    set! "vp2", "vs2" := c!"utils.V"[v!"Ksat2", v!"Gsat2", v!"rho"],
    .assign (.idx n!"vp2" (.ofList [(.cmp .gt v!"phi" v!"phib_p")])) (v!"np.nan"),
    .assign (.idx n!"vs2" (.ofList [(.cmp .gt v!"phi" v!"phib_p")])) (v!"np.nan"),
    .ret t![v!"phi", v!"vp1", v!"vp2", v!"vp3", v!"vs1", v!"vs2", v!"vs3"]])

/-- `QI.screening_plot`, QI.py:217-249. -/
def screening_plot : Fun where
  params := [⟨n!"phi", .none⟩, ⟨n!"vp1", .none⟩, ⟨n!"vp2", .none⟩, ⟨n!"vp3", .none⟩, ⟨n!"cmap",
    some v!"cmap_sand"⟩]
  body :=
  (.ofList [
    set! "fig", "ax" := c!"plt.subplots"[],
    .expr (.meth v!"fig" n!"set_size_inches" (.ofList [7, 6])),
    .expr (.meth v!"ax" n!"plot" (.ofKw [v!"phi", v!"vp3", (.str "-k")] [(n!"lw", 4), (n!"alpha",
      0.7)])),
    .expr (.meth v!"ax" n!"plot" (.ofKw [v!"phi", v!"vp1", (.str "--k")] [(n!"lw", 2), (n!"alpha",
      0.7)])),
    .expr (.meth v!"ax" n!"plot" (.ofKw [v!"phi", v!"vp2", (.str "-k")] [(n!"lw", 4), (n!"alpha",
      0.7)])),
    .expr (.meth v!"ax" n!"set_ylabel" (.ofList [(.str "Vp")])),
    .expr (.meth v!"ax" n!"set_xlabel" (.ofList [(.str "Porosity")])),
    .expr (.meth v!"ax" n!"grid" (.ofKw [] [(n!"ls", (.str "--")), (n!"alpha", 0.7)])),
    .expr (.call n!"plt.scatter" (.ofKw [v!"self.phi", v!"self.Vp"] [(n!"c", 1 - v!"self.Vsh"),
      (n!"vmin", 0), (n!"vmax", 1), (n!"edgecolors", (.str "grey")), (n!"s", 100), (n!"alpha", 1),
      (n!"cmap", v!"cmap")])),
    set! "cbar" := c!"plt.colorbar"[],
    .expr (.meth v!"cbar" n!"set_label" (.ofList [(.str "$\\rm V_{Sand}$")])),
    .ret v!"fig"])

/-- `QI.normalize`, QI.py:251-262. -/
def normalize : Fun where
  params := [⟨n!"density", .none⟩]
  body :=
  (.ofList [
    set! "den_max" := (.meth v!"density" n!"max" (.ofList [])),
    set! "new" := 1 - (v!"den_max" - v!"density") / v!"den_max",
    .ret v!"new"])

/-- `QI.kde_plot`, QI.py:264-323. -/
def kde_plot : Fun where
  params := [⟨n!"phi", .none⟩, ⟨n!"v1", .none⟩, ⟨n!"v2", .none⟩, ⟨n!"v3", .none⟩, ⟨n!"cmap", some
    v!"cmap_kde"⟩, ⟨n!"vels", some (.str "Vp")⟩, ⟨n!"n", some 64⟩]
  body :=
  (.ofList [
    set! "fig", "ax" := c!"plt.subplots"[],
    .expr (.meth v!"fig" n!"set_size_inches" (.ofList [7, 6])),
    .expr (.meth v!"ax" n!"plot" (.ofKw [v!"phi", v!"v3", (.str "-k")] [(n!"lw", 4), (n!"alpha",
      0.7)])),
    .expr (.meth v!"ax" n!"plot" (.ofKw [v!"phi", v!"v1", (.str "--k")] [(n!"lw", 2), (n!"alpha",
      0.7)])),
    .expr (.meth v!"ax" n!"plot" (.ofKw [v!"phi", v!"v2", (.str "-k")] [(n!"lw", 4), (n!"alpha",
      0.7)])),
    .expr (.meth v!"ax" n!"set_xlabel" (.ofList [(.str "Porosity")])),
    .expr (.meth v!"ax" n!"set_xlim" (.ofList [l![-0.007, 0.407]])),
    .ite (.cmp .eq v!"vels" (.str "Vp"))
      (.ofList [
        set! "density", "grid", "bandwidth" := (.call n!"kde2d" (.ofKw [v!"self.phi", v!"self.Vp"]
          [(n!"n", v!"n"), (n!"limits", .none)])),
        set! "density" := c!"QI.normalize"[v!"density"],
        .assign (.idx n!"density" (.ofList [(.cmp .lt v!"density" 0.0001)])) (0),
        .expr (.call n!"plt.pcolormesh" (.ofKw [(.idx v!"grid" (.ofList [0])), (.idx v!"grid"
          (.ofList [1])), (.attr v!"density" n!"T")] [(n!"cmap", v!"cmap_kde"), (n!"shading", (.str
          "auto"))])),
        set! "cbar" := c!"plt.colorbar"[],
        .expr (.meth v!"cbar" n!"set_label" (.ofList [(.str "KDE Normalized")])),
        .expr (.call n!"plt.contour" (.ofKw [(.idx v!"grid" (.ofList [0])), (.idx v!"grid" (.ofList
          [1])), (.attr v!"density" n!"T")] [(n!"colors", (.str "white")), (n!"linewidths", 0.5)])),
        .expr (.meth v!"ax" n!"set_ylabel" (.ofList [(.str "Vp")]))])
      (.ofList [
        .ite (.cmp .eq v!"vels" (.str "Vs"))
          (.ofList [
            set! "density", "grid", "bandwidth" := (.call n!"kde2d" (.ofKw [v!"self.phi",
              v!"self.Vs"] [(n!"n", v!"n"), (n!"limits", .none)])),
            set! "density" := c!"QI.normalize"[v!"density"],
            .assign (.idx n!"density" (.ofList [(.cmp .lt v!"density" 0.0001)])) (0),
            .expr (.call n!"plt.pcolormesh" (.ofKw [(.idx v!"grid" (.ofList [0])), (.idx v!"grid"
              (.ofList [1])), (.attr v!"density" n!"T")] [(n!"cmap", v!"cmap_kde"), (n!"shading",
              (.str "auto"))])),
            set! "cbar" := c!"plt.colorbar"[],
            .expr (.meth v!"cbar" n!"set_label" (.ofList [(.str "KDE Normalized")])),
            .expr (.call n!"plt.contour" (.ofKw [(.idx v!"grid" (.ofList [0])), (.idx v!"grid"
              (.ofList [1])), (.attr v!"density" n!"T")] [(n!"colors", (.str "white")),
              (n!"linewidths", 0.5)])),
            .expr (.meth v!"ax" n!"set_ylabel" (.ofList [(.str "Vs")]))])
          .nil]),
    .expr (.meth v!"ax" n!"grid" (.ofKw [] [(n!"alpha", 1)])),
    .ret v!"fig"])

/-- `QI.cst_vels`, QI.py:324-375. -/
def cst_vels : Fun where
  params := [⟨n!"phi_b", .none⟩, ⟨n!"K0", .none⟩, ⟨n!"D0", .none⟩, ⟨n!"G0", .none⟩, ⟨n!"phi",
    .none⟩, ⟨n!"phi_c", .none⟩, ⟨n!"Cn", .none⟩, ⟨n!"Kc", .none⟩, ⟨n!"Gc", .none⟩, ⟨n!"Db", .none⟩,
    ⟨n!"Kb", .none⟩, ⟨n!"scheme", .none⟩, ⟨n!"vsh", .none⟩, ⟨n!"Dsh", .none⟩, ⟨n!"Dqz", .none⟩,
    ⟨n!"Dc", .none⟩]
  body :=
  (.ofList [
    set! "Kdry", "Gdry" := c!"GM.constantcement"[v!"phi_b", v!"K0", v!"G0", v!"Kc", v!"Gc",
      v!"phi", v!"phi_c", v!"Cn", v!"scheme"],
    set! "D" := c!"QI.den_matrix"[v!"vsh", v!"phi_c", v!"phi_b", v!"Dsh", v!"Dqz", v!"Dc"],
    set! "vp", "vs", "_" := c!"Fluid.vels"[v!"Kdry", v!"Gdry", v!"K0", v!"D", v!"Kb", v!"Db",
      v!"phi"],
    .assign (.idx n!"vp" (.ofList [(.cmp .gt v!"phi" v!"phi_b")])) (v!"np.nan"),
    .assign (.idx n!"vs" (.ofList [(.cmp .gt v!"phi" v!"phi_b")])) (v!"np.nan"),
    .ret t![v!"vp", v!"vs"]])

/-- `QI.cst_plot`, QI.py:377-448. -/
def cst_plot : Fun where
  params := [⟨n!"Dqz", .none⟩, ⟨n!"Kqz", .none⟩, ⟨n!"Gqz", .none⟩, ⟨n!"Dsh", .none⟩, ⟨n!"Ksh",
    .none⟩, ⟨n!"Gsh", .none⟩, ⟨n!"Dc", .none⟩, ⟨n!"Kc", .none⟩, ⟨n!"Gc", .none⟩, ⟨n!"Db", .none⟩,
    ⟨n!"Kb", .none⟩, ⟨n!"phib", .none⟩, ⟨n!"phib_p", .none⟩, ⟨n!"phi_c", .none⟩, ⟨n!"sigma",
    .none⟩, ⟨n!"vsh", .none⟩, ⟨n!"Cn", .none⟩, ⟨n!"scheme", .none⟩, ⟨n!"f", .none⟩]
  body :=
  (.ofList [
    set! "_", "_", "K0" := c!"EM.VRH"[c!"np.array"[l![v!"vsh", 1 - v!"vsh"]],
      c!"np.array"[l![v!"Ksh", v!"Kqz"]]],
    set! "_", "_", "G0" := c!"EM.VRH"[c!"np.array"[l![v!"vsh", 1 - v!"vsh"]],
      c!"np.array"[l![v!"Gsh", v!"Gqz"]]],
    set! "D0" := v!"Dsh" * v!"vsh" + v!"Dqz" * (1 - v!"vsh"),
    set! "phi", "vp1", "vp2", "vp3", "vs1", "vs2", "vs3" := c!"QI.screening"[v!"Dqz", v!"Kqz",
      v!"Gqz", v!"Dsh", v!"Ksh", v!"Gsh", v!"Dc", v!"Kc", v!"Gc", v!"Db", v!"Kb", v!"phib",
      v!"phi_c", v!"sigma", v!"vsh", v!"scheme", v!"f", v!"Cn"],
    set! "fig", "ax" := c!"plt.subplots"[],
    .expr (.meth v!"ax" n!"plot" (.ofKw [v!"phi", v!"vp3", (.str "-k")] [(n!"lw", 4), (n!"alpha",
      0.7)])),
    .expr (.meth v!"ax" n!"plot" (.ofKw [v!"phi", v!"vp1", (.str "-k")] [(n!"lw", 3), (n!"alpha",
      0.7)])),
    .each (.var n!"i") v!"phib_p"
      (.ofList [
        .expr (.meth v!"ax" n!"plot" (.ofKw [v!"phi", (.idx c!"QI.cst_vels"[v!"i", v!"K0", v!"D0",
          v!"G0", v!"phi", v!"phi_c", v!"Cn", v!"Kc", v!"Gc", v!"Db", v!"Kb", v!"scheme", v!"vsh",
          v!"Dsh", v!"Dqz", v!"Dc"] (.ofList [0])), (.str "--k")] [(n!"lw", 2), (n!"alpha",
          0.7)]))]),
    .expr (.meth v!"ax" n!"set_ylabel" (.ofList [(.str "Vp (m/s)")])),
    .expr (.meth v!"ax" n!"set_xlabel" (.ofList [(.str "porosity")])),
    .expr (.meth v!"ax" n!"grid" (.ofList [])),
    .ret t![v!"fig", v!"ax"]])

/-- `QI.cal_v_const`, QI.py:449-502. -/
def cal_v_const : Fun where
  params := [⟨n!"Dqz", .none⟩, ⟨n!"Kqz", .none⟩, ⟨n!"Gqz", .none⟩, ⟨n!"Dsh", .none⟩, ⟨n!"Ksh",
    .none⟩, ⟨n!"Gsh", .none⟩, ⟨n!"Dc", .none⟩, ⟨n!"Kc", .none⟩, ⟨n!"Gc", .none⟩, ⟨n!"Db", .none⟩,
    ⟨n!"Kb", .none⟩, ⟨n!"phi_b", .none⟩, ⟨n!"phi_c", .none⟩, ⟨n!"vsh", .none⟩, ⟨n!"phi", .none⟩,
    ⟨n!"scheme", .none⟩]
  body :=
  (.ofList [
    set! "_", "_", "K0" := c!"EM.VRH"[c!"np.array"[l![v!"vsh", 1 - v!"vsh"]],
      c!"np.array"[l![v!"Ksh", v!"Kqz"]]],
    set! "_", "_", "G0" := c!"EM.VRH"[c!"np.array"[l![v!"vsh", 1 - v!"vsh"]],
      c!"np.array"[l![v!"Gsh", v!"Gqz"]]],
    set! "D0" := v!"Dsh" * v!"vsh" + v!"Dqz" * (1 - v!"vsh"),
    set! "Cn" := c!"Empirical.Cp"[v!"phi_c"],
    set! "Kdry", "Gdry" := c!"GM.constantcement"[v!"phi_b", v!"K0", v!"G0", v!"Kc", v!"Gc",
      v!"phi", v!"phi_c", v!"Cn", v!"scheme"],
    set! "vp", "vs", "_" := c!"Fluid.vels"[v!"Kdry", v!"Gdry", v!"K0", v!"D0", v!"Kb", v!"Db",
      v!"phi"],
    .ret t![v!"vp", v!"vs"]])

/-- `QI.estimate_cem`, QI.py:505-575. -/
def estimate_cem : Fun where
  params := [⟨n!"vcem_seeds", .none⟩, ⟨n!"Kqz", .none⟩, ⟨n!"Gqz", .none⟩, ⟨n!"Ksh", .none⟩,
    ⟨n!"Gsh", .none⟩, ⟨n!"phi_c", .none⟩, ⟨n!"Cn", .none⟩, ⟨n!"Kc", .none⟩, ⟨n!"Gc", .none⟩,
    ⟨n!"Db", .none⟩, ⟨n!"Kb", .none⟩, ⟨n!"scheme", .none⟩, ⟨n!"vsh", .none⟩, ⟨n!"Dsh", .none⟩,
    ⟨n!"Dqz", .none⟩, ⟨n!"Dc", .none⟩]
  body :=
  (.ofList [
    set! "_", "_", "K0" := c!"EM.VRH"[c!"np.array"[l![v!"vsh", 1 - v!"vsh"]],
      c!"np.array"[l![v!"Ksh", v!"Kqz"]]],
    set! "_", "_", "G0" := c!"EM.VRH"[c!"np.array"[l![v!"vsh", 1 - v!"vsh"]],
      c!"np.array"[l![v!"Gsh", v!"Gqz"]]],
    set! "D0" := v!"Dsh" * v!"vsh" + v!"Dqz" * (1 - v!"vsh"),
    set! "df" := c!"pd.DataFrame"[],
    .each (.var n!"i") v!"vcem_seeds"
      (.ofList [
        set! "VP", "VS" := c!"QI.cal_v_const"[v!"Dqz", v!"Kqz", v!"Gqz", v!"Dsh", v!"Ksh", v!"Gsh",
          v!"Dc", v!"Kc", v!"Gc", v!"Db", v!"Kb", v!"phi_c" - v!"i", v!"phi_c", v!"vsh",
          v!"self.phi", v!"scheme"],
        .assign (.idx n!"df" (.ofList [(.str "vcem_vp") + c!"str"[v!"i"]])) (v!"VP")]),
    .assign (.idx n!"df" (.ofList [(.str "vcem")])) (v!"np.nan"),
    .each (.tuple [n!"i", n!"val"]) c!"enumerate"[v!"self.Vp"]
      (.ofList [
        set! "array" := c!"np.array"[(.idx (.attr v!"df" n!"iloc") (.ofList [v!"i", (.slice .none
          (-1))]))],
        .ite (.cmp .le v!"val" (.idx v!"array" (.ofList [0])))
          (.ofList [
            .assign (.cell n!"df" "vcem" (.ofList [v!"i"])) (0)])
          (.ofList [
            .ite (.cmp .ge v!"val" (.idx v!"array" (.ofList [-1])))
              (.ofList [
                .assign (.cell n!"df" "vcem" (.ofList [v!"i"])) (0.1)])
              (.ofList [
                set! "big" := (.meth (.idx v!"array" (.ofList [(.cmp .lt v!"array" v!"val")]))
                  n!"max" (.ofList [])),
                set! "small" := (.meth (.idx v!"array" (.ofList [(.cmp .gt v!"array" v!"val")]))
                  n!"min" (.ofList [])),
                .assign (.cell n!"df" "vcem" (.ofList [v!"i"])) ((v!"val" - v!"small") / (v!"big" -
                  v!"small") * ((.idx v!"vcem_seeds" (.ofList [(.cmp .eq v!"array" v!"big")])) -
                  (.idx v!"vcem_seeds" (.ofList [(.cmp .eq v!"array" v!"small")]))) + (.idx
                  v!"vcem_seeds" (.ofList [(.cmp .eq v!"array" v!"small")])))])])]),
    .ret (.attr (.attr v!"df" n!"vcem") n!"values")])

/-- `QI.cement_diag_plot`, QI.py:576-640. -/
def cement_diag_plot : Fun where
  params := [⟨n!"vcem", .none⟩, ⟨n!"Dqz", .none⟩, ⟨n!"Kqz", .none⟩, ⟨n!"Gqz", .none⟩, ⟨n!"Dsh",
    .none⟩, ⟨n!"Ksh", .none⟩, ⟨n!"Gsh", .none⟩, ⟨n!"Dc", .none⟩, ⟨n!"Kc", .none⟩, ⟨n!"Gc", .none⟩,
    ⟨n!"Db", .none⟩, ⟨n!"Kb", .none⟩, ⟨n!"phib", .none⟩, ⟨n!"phib_p", .none⟩, ⟨n!"phi_c", .none⟩,
    ⟨n!"sigma", .none⟩, ⟨n!"vsh", .none⟩, ⟨n!"Cn", .none⟩, ⟨n!"scheme", .none⟩, ⟨n!"f", .none⟩]
  body :=
  (.ofList [
    set! "fig", "ax" := c!"QI.cst_plot"[v!"Dqz", v!"Kqz", v!"Gqz", v!"Dsh", v!"Ksh", v!"Gsh",
      v!"Dc", v!"Kc", v!"Gc", v!"Db", v!"Kb", v!"phib", v!"phib_p", v!"phi_c", v!"sigma", v!"vsh",
      v!"Cn", v!"scheme", v!"f"],
    .expr (.meth v!"fig" n!"set_size_inches" (.ofList [7, 6])),
    .expr (.call n!"plt.scatter" (.ofKw [v!"self.phi", v!"self.Vp"] [(n!"c", v!"vcem"),
      (n!"edgecolors", (.str "grey")), (n!"s", 100), (n!"vmin", 0), (n!"vmax", 0.1), (n!"alpha",
      0.7), (n!"cmap", v!"cmap_cem")])),
    set! "cbar" := c!"plt.colorbar"[],
    .expr (.meth v!"cbar" n!"set_label" (.ofList [(.str "$\\rm V_{CEM}$")])),
    .expr c!"plt.xlabel"[(.str "Porosity")],
    .expr c!"plt.ylim"[l![1500, 6500]],
    .expr c!"plt.xlim"[l![-0.007, 0.507]],
    .ret v!"fig"])

/-- `QI.plot_rpt`, QI.py:643-699. -/
def plot_rpt : Fun where
  params := [⟨n!"Kdry", .none⟩, ⟨n!"Gdry", .none⟩, ⟨n!"K0", .none⟩, ⟨n!"D0", .none⟩, ⟨n!"Kb",
    .none⟩, ⟨n!"Db", .none⟩, ⟨n!"Khc", .none⟩, ⟨n!"Dhc", .none⟩, ⟨n!"phi", .none⟩, ⟨n!"sw", .none⟩]
  body :=
  (.ofList [
    set! "IP" := c!"np.empty"[t![(.attr v!"phi" n!"size"), (.attr v!"sw" n!"size")]],
    set! "PS" := c!"np.empty"[t![(.attr v!"phi" n!"size"), (.attr v!"sw" n!"size")]],
    .each (.tuple [n!"i", n!"val"]) c!"enumerate"[v!"sw"]
      (.ofList [
        set! "Kf" := (v!"val" / v!"Kb" + (1 - v!"val") / v!"Khc") ** (-1),
        set! "Df" := v!"val" * v!"Db" + (1 - v!"val") * v!"Dhc",
        set! "vp", "vs", "rho" := c!"Fluid.vels"[v!"Kdry", v!"Gdry", v!"K0", v!"D0", v!"Kf",
          v!"Df", v!"phi"],
        .assign (.idx n!"IP" (.ofList [(.slice .none .none), v!"i"])) (v!"vp" * v!"rho"),
        .assign (.idx n!"PS" (.ofList [(.slice .none .none), v!"i"])) (v!"vp" / v!"vs")]),
    set! "fig" := (.call n!"plt.figure" (.ofKw [] [(n!"figsize", t![10, 8])])),
    .expr (.call n!"plt.plot" (.ofKw [(.attr v!"IP" n!"T"), (.attr v!"PS" n!"T"), (.str "-ok")]
      [(n!"mec", (.str "k")), (n!"ms", 10), (n!"mfc", (.str "yellow"))])),
    .expr (.call n!"plt.plot" (.ofKw [(.idx v!"IP" (.ofList [(.slice .none .none), -1])), (.idx
      v!"PS" (.ofList [(.slice .none .none), -1])), (.str "-ok")] [(n!"mec", (.str "k")), (n!"ms",
      10), (n!"mfc", (.str "blue"))])),
    .expr t![c!"plt.xlabel"[(.str "Acoustic Impedance")], c!"plt.ylabel"[(.str "Vp/Vs")]],
    .ret v!"fig"])

end RockPhy.Source.QI
