{
 "claims": [
  {
   "property": "C01",
   "status": "proved",
   "theorems": [
    "RockPhy.Props.C01_moduli_roundtrip",
    "RockPhy.Props.C01_velocity_roundtrip",
    "RockPhy.Props.C01_negative_shear_undefined"
   ],
   "note": ""
  },
  {
   "property": "C02",
   "status": "proved",
   "theorems": [
    "RockPhy.Props.C02_poisson_bounds",
    "RockPhy.Props.C02_poisson_scale",
    "RockPhy.Props.C02_lame_from_poisson",
    "RockPhy.Props.C02_poisson_from_velocity"
   ],
   "note": ""
  },
  {
   "property": "C03",
   "status": "proved",
   "theorems": [
    "RockPhy.Props.C03_write_VTI",
    "RockPhy.Props.C03_write_HTI",
    "RockPhy.Props.C03_write_matrix",
    "RockPhy.Props.C03_write_iso",
    "RockPhy.Props.C03_iso_is_VTI_and_HTI",
    "RockPhy.Props.C03_iso_stable_iff",
    "RockPhy.Props.C03_VTI_stable_iff",
    "RockPhy.Props.C03_HTI_stable_iff",
    "RockPhy.Props.C03_write_VTI_compliance",
    "RockPhy.Props.C03_VTI_compliance_inverse"
   ],
   "note": ""
  },
  {
   "property": "C04",
   "status": "proved",
   "theorems": [
    "RockPhy.Props.C04_stiffness_recovered"
   ],
   "note": ""
  },
  {
   "property": "C05",
   "status": "proved",
   "theorems": [
    "RockPhy.Props.C05_VRH_ordered",
    "RockPhy.Props.C05_VRH_between"
   ],
   "note": ""
  },
  {
   "property": "C06",
   "status": "proved",
   "theorems": [
    "RockPhy.Props.C06_VRH_perm",
    "RockPhy.Props.C06_VRH_split",
    "RockPhy.Props.C06_VRH_identical",
    "RockPhy.Props.C06_VRH_mismatch"
   ],
   "note": ""
  },
  {
   "property": "C07",
   "status": "proved",
   "theorems": [
    "RockPhy.Props.C07_cripor_endpoints",
    "RockPhy.Props.C07_cripor_decreasing",
    "RockPhy.Props.C07_cripor_beyond",
    "RockPhy.Props.C07_cripor_reuss"
   ],
   "note": ""
  },
  {
   "property": "C08",
   "status": "proved",
   "theorems": [
    "RockPhy.Props.C08_HS_ordered",
    "RockPhy.Props.C08_HS_mixed_order_reversed",
    "RockPhy.Props.C08_HS_mono_fraction"
   ],
   "note": ""
  },
  {
   "property": "C09",
   "status": "proved",
   "theorems": [
    "RockPhy.Props.C09_HS_endpoints",
    "RockPhy.Props.C09_HS_swap",
    "RockPhy.Props.C09_HS_between"
   ],
   "note": ""
  },
  {
   "property": "C10",
   "status": "proved",
   "theorems": [
    "RockPhy.Props.C10_HS_same_modulus_undefined",
    "RockPhy.Props.C10_HS_same_modulus_numpy",
    "RockPhy.Props.C10_HS_same_shear_numpy"
   ],
   "note": ""
  },
  {
   "property": "C11",
   "status": "proved",
   "theorems": [
    "RockPhy.Props.C11_MT_is_HS",
    "RockPhy.Props.C11_MT_properties",
    "RockPhy.Props.C11_MT_mono_matrix"
   ],
   "note": ""
  },
  {
   "property": "C12",
   "status": "proved",
   "theorems": [
    "RockPhy.Props.C12_hudson_uncracked",
    "RockPhy.Props.C12_ortho_uncracked",
    "RockPhy.Props.C12_cone_uncracked",
    "RockPhy.Props.C12_rand_uncracked",
    "RockPhy.Props.C12_Eshelby_Cheng_nonporous"
   ],
   "note": ""
  },
  {
   "property": "C13",
   "status": "proved",
   "theorems": [
    "RockPhy.Props.C13_hudson_axes",
    "RockPhy.Props.C13_hudson_errors",
    "RockPhy.Props.C13_hudson_symmetry",
    "RockPhy.Props.C13_hudson_softens"
   ],
   "note": ""
  },
  {
   "property": "C14",
   "status": "proved",
   "theorems": [
    "RockPhy.Props.C14_ortho_single3",
    "RockPhy.Props.C14_ortho_single1",
    "RockPhy.Props.C14_ortho_single2",
    "RockPhy.Props.C14_ortho_superposition"
   ],
   "note": ""
  },
  {
   "property": "C15",
   "status": "proved",
   "theorems": [
    "RockPhy.Props.C15_rand_bulk",
    "RockPhy.Props.C15_rand_shear_15_times"
   ],
   "note": ""
  },
  {
   "property": "C16",
   "status": "proved",
   "theorems": [
    "RockPhy.Props.C16_cone_vertical",
    "RockPhy.Props.C16_cone_invariant",
    "RockPhy.Props.C16_cone_not_VTI",
    "RockPhy.Props.C16_cone_violated"
   ],
   "note": ""
  },
  {
   "property": "C17",
   "status": "proved",
   "theorems": [
    "RockPhy.Props.C17_PQ_neutral",
    "RockPhy.Props.C17_PQ_vectorize_neutral"
   ],
   "note": ""
  },
  {
   "property": "C18",
   "status": "proved",
   "theorems": [
    "RockPhy.Props.C18_PQ_vectorize_entries",
    "RockPhy.Props.C18_PQ_vectorize_mutates",
    "RockPhy.Props.C18_PQ_vectorize_shapes"
   ],
   "note": ""
  },
  {
   "property": "C19",
   "status": "proved",
   "theorems": [
    "RockPhy.Props.C19_Berryman_homogeneous",
    "RockPhy.Props.C19_DEM_stationary",
    "RockPhy.Props.C19_DEM_direction"
   ],
   "note": ""
  },
  {
   "property": "C20",
   "status": "proved",
   "theorems": [
    "RockPhy.Props.C20_Swiss_cheese_mineral",
    "RockPhy.Props.C20_Swiss_cheese_bounds",
    "RockPhy.Props.C20_Swiss_cheese_decreasing",
    "RockPhy.Props.C20_Swiss_cheese_slope"
   ],
   "note": ""
  },
  {
   "property": "C21",
   "status": "proved",
   "theorems": [
    "RockPhy.Props.C21_SC_monotone",
    "RockPhy.Props.C21_SC_mineral",
    "RockPhy.Props.C21_SC_one_iteration",
    "RockPhy.Props.C21_SelfConsistent_none",
    "RockPhy.Props.C21_SC_limit"
   ],
   "note": ""
  },
  {
   "property": "C22",
   "status": "proved",
   "theorems": [
    "RockPhy.Props.C22_uncracked",
    "RockPhy.Props.C22_OConnell_Budiansky_threshold",
    "RockPhy.Props.C22_OConnell_Budiansky_bounds",
    "RockPhy.Props.C22_Dilute_crack_decreasing",
    "RockPhy.Props.C22_same_slope"
   ],
   "note": ""
  },
  {
   "property": "C23",
   "status": "proved",
   "theorems": [
    "RockPhy.Props.C23_stress_Swiss_cheese",
    "RockPhy.Props.C23_strain_le_stress",
    "RockPhy.Props.C23_returns_ratios",
    "RockPhy.Props.C23_unknown_mode"
   ],
   "note": ""
  },
  {
   "property": "C24",
   "status": "proved",
   "theorems": [
    "RockPhy.Props.C24_SC_flex_matrix",
    "RockPhy.Props.C24_SC_flex_start",
    "RockPhy.Props.C24_SC_flex_start_violated",
    "RockPhy.Props.C24_SC_flex_start_division",
    "RockPhy.Props.C24_SC_flex_fixed_points"
   ],
   "note": ""
  },
  {
   "property": "C25",
   "status": "proved",
   "theorems": [
    "RockPhy.Props.C25_Brie_endpoints",
    "RockPhy.Props.C25_Brie_monotone",
    "RockPhy.Props.C25_Brie_exponent",
    "RockPhy.Props.C25_Brie_patchy"
   ],
   "note": ""
  },
  {
   "property": "C26",
   "status": "proved",
   "theorems": [
    "RockPhy.Props.C26_shear_unchanged",
    "RockPhy.Props.C26_Gassmann",
    "RockPhy.Props.C26_Gassmann_monotone",
    "RockPhy.Props.C26_Gassmann_mineral"
   ],
   "note": ""
  },
  {
   "property": "C27",
   "status": "proved",
   "theorems": [
    "RockPhy.Props.C27_sub_identity",
    "RockPhy.Props.C27_sub_path",
    "RockPhy.Props.C27_sub_round_trip",
    "RockPhy.Props.C27_sub_Gassmann",
    "RockPhy.Props.C27_approx_same_map"
   ],
   "note": ""
  },
  {
   "property": "C28",
   "status": "proved",
   "theorems": [
    "RockPhy.Props.C28_vels_identity",
    "RockPhy.Props.C28_vels_shear",
    "RockPhy.Props.C28_vels_round_trip",
    "RockPhy.Props.C28_vels_consistent"
   ],
   "note": ""
  },
  {
   "property": "C29",
   "status": "proved",
   "theorems": [
    "RockPhy.Props.C29_sat2dry_dry2sat",
    "RockPhy.Props.C29_dry2sat_sat2dry",
    "RockPhy.Props.C29_sub_identity",
    "RockPhy.Props.C29_sub_path",
    "RockPhy.Props.C29_shear_entries",
    "RockPhy.Props.C29_stiffens"
   ],
   "note": ""
  },
  {
   "property": "C30",
   "status": "proved",
   "theorems": [
    "RockPhy.Props.C30_isotropic_Gassmann"
   ],
   "note": ""
  },
  {
   "property": "C31",
   "status": "proved",
   "theorems": [
    "RockPhy.Props.C31_Biot_HF_roots",
    "RockPhy.Props.C31_shear_agrees",
    "RockPhy.Props.C31_shear_dispersion",
    "RockPhy.Props.C31_geertsma_smit"
   ],
   "note": ""
  },
  {
   "property": "C32",
   "status": "proved",
   "theorems": [
    "RockPhy.Props.C32_between_limits",
    "RockPhy.Props.C32_monotone"
   ],
   "note": ""
  },
  {
   "property": "C33",
   "status": "proved",
   "theorems": [
    "RockPhy.Props.C33_bulk",
    "RockPhy.Props.C33_equal_compliances",
    "RockPhy.Props.C33_undefined",
    "RockPhy.Props.C33_isotropic_iff",
    "RockPhy.Props.C33_isotropic_violated",
    "RockPhy.Props.C33_isotropic_tensor"
   ],
   "note": ""
  },
  {
   "property": "C34",
   "status": "proved",
   "theorems": [
    "RockPhy.Props.C34_Thomsen_isotropic",
    "RockPhy.Props.C34_Tsvankin_VTI",
    "RockPhy.Props.C34_Thomsen_vertical_exact",
    "RockPhy.Props.C34_Thomsen_SH_error"
   ],
   "note": "Covers the exact isotropic limit, the VTI reduction of Thomsen_Tsvankin and the error of the weak-anisotropy SH formula."
  },
  {
   "property": "C35",
   "status": "proved",
   "theorems": [
    "RockPhy.Props.C35_christoffel_is_energy",
    "RockPhy.Props.C35_VTI_spectrum",
    "RockPhy.Props.C35_VTI_real",
    "RockPhy.Props.C35_HTI_spectrum",
    "RockPhy.Props.C35_HTI_real",
    "RockPhy.Props.C35_HTI_stable"
   ],
   "note": ""
  },
  {
   "property": "C36",
   "status": "proved",
   "theorems": [
    "RockPhy.Props.C36_Backus_stable",
    "RockPhy.Props.C36_Backus_bounds",
    "RockPhy.Props.C36_Backus_identical",
    "RockPhy.Props.C36_Backus_perm",
    "RockPhy.Props.C36_Backus_split",
    "RockPhy.Props.C36_Backus_scale",
    "RockPhy.Props.C36_Backus_shapes"
   ],
   "note": ""
  },
  {
   "property": "C37",
   "status": "proved",
   "theorems": [
    "RockPhy.Props.C37_log_is_thickness_average",
    "RockPhy.Props.C37_log_refinement",
    "RockPhy.Props.C37_log_shift",
    "RockPhy.Props.C37_log_physical"
   ],
   "note": ""
  },
  {
   "property": "C38",
   "status": "proved",
   "theorems": [
    "RockPhy.Props.C38_axis_error",
    "RockPhy.Props.C38_symmetric",
    "RockPhy.Props.C38_quarter_turn_axis3",
    "RockPhy.Props.C38_quarter_turn_axis1",
    "RockPhy.Props.C38_zero_angle",
    "RockPhy.Props.C38_isotropic_changes",
    "RockPhy.Props.C38_isotropic_violated"
   ],
   "note": "The documented rotation is wrong: C38_isotropic_changes shows exactly when an isotropic matrix survives (a factor 2 is missing in the code); the true parts (identity at 0, quarter turns, symmetry, axis error) are proved for every matrix."
  },
  {
   "property": "C39",
   "status": "proved",
   "theorems": [
    "RockPhy.Props.C39_positive",
    "RockPhy.Props.C39_cube_law",
    "RockPhy.Props.C39_stress_scaling",
    "RockPhy.Props.C39_monotone",
    "RockPhy.Props.C39_friction_limits"
   ],
   "note": ""
  },
  {
   "property": "C40",
   "status": "proved",
   "theorems": [
    "RockPhy.Props.C40_Walton_eq_hertzmindlin"
   ],
   "note": ""
  },
  {
   "property": "C41",
   "status": "proved",
   "theorems": [
    "RockPhy.Props.C41_softsand_is_HS",
    "RockPhy.Props.C41_stiffsand_is_HS",
    "RockPhy.Props.C41_endpoints",
    "RockPhy.Props.C41_order"
   ],
   "note": ""
  },
  {
   "property": "C42",
   "status": "proved",
   "theorems": [
    "RockPhy.Props.C42_constantcement",
    "RockPhy.Props.C42_MUHS",
    "RockPhy.Props.C42_order"
   ],
   "note": ""
  },
  {
   "property": "C43",
   "status": "proved",
   "theorems": [
    "RockPhy.Props.C43_end_members",
    "RockPhy.Props.C43_mineral",
    "RockPhy.Props.C43_unknown_mode",
    "RockPhy.Props.C43_vpcm_limits",
    "RockPhy.Props.C43_vpcm_monotone",
    "RockPhy.Props.C43_threshold",
    "RockPhy.Props.C43_equal_end_members",
    "RockPhy.Props.C43_cemented_pack",
    "RockPhy.Props.C43_pcm_is_HS",
    "RockPhy.Props.C43_vpcm_is_HS",
    "RockPhy.Props.C43_pcm_monotone"
   ],
   "note": ""
  },
  {
   "property": "C44",
   "status": "proved",
   "theorems": [
    "RockPhy.Props.C44_endpoints",
    "RockPhy.Props.C44_dispersed"
   ],
   "note": ""
  },
  {
   "property": "C45",
   "status": "proved",
   "theorems": [
    "RockPhy.Props.C45_shaly_sand",
    "RockPhy.Props.C45_silty_shale",
    "RockPhy.Props.C45_silty_shale_violated",
    "RockPhy.Props.C45_silty_shale_out_of_bounds"
   ],
   "note": ""
  },
  {
   "property": "C46",
   "status": "proved",
   "theorems": [
    "RockPhy.Props.C46_selects_one",
    "RockPhy.Props.C46_unbonded",
    "RockPhy.Props.C46_monotone",
    "RockPhy.Props.C46_zero_stress"
   ],
   "note": ""
  },
  {
   "property": "C47",
   "status": "proved",
   "theorems": [
    "RockPhy.Props.C47_paths",
    "RockPhy.Props.C47_unknown_path",
    "RockPhy.Props.C47_stiffness_path_independent",
    "RockPhy.Props.C47_C13_violated",
    "RockPhy.Props.C47_equal_strains",
    "RockPhy.Props.C47_C11_violated",
    "RockPhy.Props.C47_iso_uni_sigma11_violated"
   ],
   "note": ""
  },
  {
   "property": "C48",
   "status": "proved",
   "theorems": [
    "RockPhy.Props.C48_aki_richards",
    "RockPhy.Props.C48_aki_richards_zero",
    "RockPhy.Props.C48_aki_richards_antisymm",
    "RockPhy.Props.C48_abe_zero",
    "RockPhy.Props.C48_abe_first_gradient",
    "RockPhy.Props.C48_ortho_zero",
    "RockPhy.Props.C48_ortho_antisymm",
    "RockPhy.Props.C48_hti_zero",
    "RockPhy.Props.C48_hti_antisymm"
   ],
   "note": ""
  },
  {
   "property": "C49",
   "status": "proved",
   "theorems": [
    "RockPhy.Props.C49_agree",
    "RockPhy.Props.C49_three_terms",
    "RockPhy.Props.C49_shuey",
    "RockPhy.Props.C49_converted"
   ],
   "note": ""
  },
  {
   "property": "C50",
   "status": "proved",
   "theorems": [
    "RockPhy.Props.C50_normal",
    "RockPhy.Props.C50_no_contrast_spec",
    "RockPhy.Props.C50_no_contrast_code",
    "RockPhy.Props.C50_no_contrast_violated",
    "RockPhy.Props.C50_post_critical",
    "RockPhy.Props.C50_correct",
    "RockPhy.Props.C50_wrong"
   ],
   "note": ""
  },
  {
   "property": "C51",
   "status": "proved",
   "theorems": [
    "RockPhy.Props.C51_normal_incidence",
    "RockPhy.Props.C51_impedance",
    "RockPhy.Props.C51_reflectivity",
    "RockPhy.Props.C51_shear"
   ],
   "note": ""
  },
  {
   "property": "C52",
   "status": "proved",
   "theorems": [
    "RockPhy.Props.C52_mesh",
    "RockPhy.Props.C52_ruger",
    "RockPhy.Props.C52_ortho",
    "RockPhy.Props.C52_planes",
    "RockPhy.Props.C52_azimuth",
    "RockPhy.Props.C52_isotropic"
   ],
   "note": ""
  },
  {
   "property": "C53",
   "status": "proved",
   "theorems": [
    "RockPhy.Props.C53_derivative",
    "RockPhy.Props.C53_gas",
    "RockPhy.Props.C53_co2"
   ],
   "note": ""
  },
  {
   "property": "C54",
   "status": "proved",
   "theorems": [
    "RockPhy.Props.C54_water",
    "RockPhy.Props.C54_brine",
    "RockPhy.Props.C54_no_salt"
   ],
   "note": ""
  },
  {
   "property": "C55",
   "status": "proved",
   "theorems": [
    "RockPhy.Props.C55_density",
    "RockPhy.Props.C55_endpoints",
    "RockPhy.Props.C55_order"
   ],
   "note": ""
  },
  {
   "property": "C56",
   "status": "proved",
   "theorems": [
    "RockPhy.Props.C56_min",
    "RockPhy.Props.C56_units"
   ],
   "note": ""
  },
  {
   "property": "C57",
   "status": "proved",
   "theorems": [
    "RockPhy.Props.C57_yu_perm",
    "RockPhy.Props.C57_yu_aligned_iff",
    "RockPhy.Props.C57_yu_sorted",
    "RockPhy.Props.C57_yu_misaligned",
    "RockPhy.Props.C57_japsen_perm",
    "RockPhy.Props.C57_japsen_sorted",
    "RockPhy.Props.C57_trends"
   ],
   "note": ""
  },
  {
   "property": "C58",
   "status": "proved",
   "theorems": [
    "RockPhy.Props.C58_kozeny_carman",
    "RockPhy.Props.C58_zero_and_strictMono",
    "RockPhy.Props.C58_scaling",
    "RockPhy.Props.C58_percolation",
    "RockPhy.Props.C58_percolation_below",
    "RockPhy.Props.C58_panda_lake",
    "RockPhy.Props.C58_panda_lake_spread",
    "RockPhy.Props.C58_panda_lake_cem"
   ],
   "note": ""
  },
  {
   "property": "C59",
   "status": "proved",
   "theorems": [
    "RockPhy.Props.C59_value",
    "RockPhy.Props.C59_decreases_with_grain_size",
    "RockPhy.Props.C59_vs_kozeny_carman"
   ],
   "note": ""
  },
  {
   "property": "C60",
   "status": "proved",
   "theorems": [
    "RockPhy.Props.C60_mass_balance",
    "RockPhy.Props.C60_hill",
    "RockPhy.Props.C60_between"
   ],
   "note": ""
  },
  {
   "property": "C61",
   "status": "proved",
   "theorems": [
    "RockPhy.Props.C61_outside",
    "RockPhy.Props.C61_between",
    "RockPhy.Props.C61_between_monotone",
    "RockPhy.Props.C61_on_template",
    "RockPhy.Props.C61_list_seeds",
    "RockPhy.Props.C61_length_mismatch",
    "RockPhy.Props.C61_estimate",
    "RockPhy.Props.C61_repeated_seed",
    "RockPhy.Props.C61_log",
    "RockPhy.Props.C61_ignored"
   ],
   "note": ""
  },
  {
   "property": "C62",
   "status": "proved",
   "theorems": [
    "RockPhy.Props.C62_Mavko_Jizba"
   ],
   "note": ""
  },
  {
   "property": "C63",
   "status": "proved",
   "theorems": [
    "RockPhy.Props.C63_positive",
    "RockPhy.Props.C63_monotone",
    "RockPhy.Props.C63_scheme",
    "RockPhy.Props.C63_above_critical"
   ],
   "note": ""
  },
  {
   "property": "C64",
   "status": "proved",
   "theorems": [
    "RockPhy.Props.C64_in_range",
    "RockPhy.Props.C64_decreasing",
    "RockPhy.Props.C64_above_noninteger",
    "RockPhy.Props.C64_above_even_violated",
    "RockPhy.Props.C64_above_odd_violated"
   ],
   "note": ""
  },
  {
   "property": "C65",
   "status": "proved",
   "theorems": [
    "RockPhy.Props.C65_mixture",
    "RockPhy.Props.C65_between"
   ],
   "note": ""
  },
  {
   "property": "C66",
   "status": "proved",
   "theorems": [
    "RockPhy.Props.C66_perm_logs_mono",
    "RockPhy.Props.C66_perm_logs_strict",
    "RockPhy.Props.C66_perm_logs_antitone",
    "RockPhy.Props.C66_owolabi",
    "RockPhy.Props.C66_published",
    "RockPhy.Props.C66_revil",
    "RockPhy.Props.C66_revil_archie",
    "RockPhy.Props.C66_bloch"
   ],
   "note": ""
  },
  {
   "property": "C67",
   "status": "proved",
   "theorems": [
    "RockPhy.Props.C67_value",
    "RockPhy.Props.C67_mineral",
    "RockPhy.Props.C67_decreasing"
   ],
   "note": ""
  },
  {
   "property": "C68",
   "status": "proved",
   "theorems": [
    "RockPhy.Props.C68_between",
    "RockPhy.Props.C68_low_velocity"
   ],
   "note": ""
  },
  {
   "property": "C69",
   "status": "proved",
   "theorems": [
    "RockPhy.Props.C69_coordination"
   ],
   "note": ""
  },
  {
   "property": "C70",
   "status": "proved",
   "theorems": [
    "RockPhy.Props.C70_sclater",
    "RockPhy.Props.C70_hillis",
    "RockPhy.Props.C70_hillis_transit",
    "RockPhy.Props.C70_linear",
    "RockPhy.Props.C70_han",
    "RockPhy.Props.C70_stpeter",
    "RockPhy.Props.C70_stpeter_unknown",
    "RockPhy.Props.C70_published"
   ],
   "note": ""
  },
  {
   "property": "C71",
   "status": "proved",
   "theorems": [
    "RockPhy.Props.C71_oil_density",
    "RockPhy.Props.C71_live_oil_default",
    "RockPhy.Props.C71_dead_oil",
    "RockPhy.Props.C71_live_oil",
    "RockPhy.Props.C71_live_oil_density"
   ],
   "note": ""
  },
  {
   "property": "C72",
   "status": "proved",
   "theorems": [
    "RockPhy.Props.C72_water_density"
   ],
   "note": ""
  },
  {
   "property": "C73",
   "status": "proved",
   "theorems": [
    "RockPhy.Props.C73_normalize",
    "RockPhy.Props.C73_not_positive"
   ],
   "note": ""
  },
  {
   "property": "C74",
   "status": "proved",
   "theorems": [
    "RockPhy.Props.C74_linspace",
    "RockPhy.Props.C74_screening",
    "RockPhy.Props.C74_masked_nan"
   ],
   "note": ""
  },
  {
   "property": "C75",
   "status": "proved",
   "theorems": [
    "RockPhy.Props.C75_endpoints",
    "RockPhy.Props.C75_monotone"
   ],
   "note": ""
  },
  {
   "property": "C76",
   "status": "proved",
   "theorems": [
    "RockPhy.Props.C76_waves",
    "RockPhy.Props.C76_flow_regimes",
    "RockPhy.Props.C76_shear_attenuates",
    "RockPhy.Props.C76_zero_frequency",
    "RockPhy.Props.C76_high_frequency",
    "RockPhy.Props.C76_low_frequency",
    "RockPhy.Props.C76_labels_swapped"
   ],
   "note": ""
  },
  {
   "property": "C77",
   "status": "proved",
   "theorems": [
    "RockPhy.Props.C77_passive",
    "RockPhy.Props.C77_same_fluid",
    "RockPhy.Props.C77_low_frequency",
    "RockPhy.Props.C77_high_frequency",
    "RockPhy.Props.C77_exchange",
    "RockPhy.Props.C77_no_number"
   ],
   "note": ""
  },
  {
   "property": "C78",
   "status": "proved",
   "theorems": [
    "RockPhy.Props.C78_sh",
    "RockPhy.Props.C78_sv",
    "RockPhy.Props.C78_exact_first_order",
    "RockPhy.Props.C78_aki_richards",
    "RockPhy.Props.C78_shuey"
   ],
   "note": ""
  },
  {
   "property": "C79",
   "status": "proved",
   "theorems": [
    "RockPhy.Props.C79_oblate",
    "RockPhy.Props.C79_prolate_wrong",
    "RockPhy.Props.C79_prolate_mended",
    "RockPhy.Props.C79_prolate_theta",
    "RockPhy.Props.C79_prolate_limit",
    "RockPhy.Props.C79_prolate_near_sphere",
    "RockPhy.Props.C79_needle"
   ],
   "note": ""
  },
  {
   "property": "C80",
   "status": "proved",
   "theorems": [
    "RockPhy.Props.C80_aligned_pores",
    "RockPhy.Props.C80_C11_wrong",
    "RockPhy.Props.C80_C11"
   ],
   "note": ""
  },
  {
   "property": "C81",
   "status": "proved",
   "theorems": [
    "RockPhy.Props.C81_Swiss_cheese",
    "RockPhy.Props.C81_SelfConsistent",
    "RockPhy.Props.C81_SC_dilute",
    "RockPhy.Props.C81_SC_flex_step",
    "RockPhy.Props.C81_MT_average"
   ],
   "note": ""
  },
  {
   "property": "C82",
   "status": "proved",
   "theorems": [
    "RockPhy.Props.C82_Berryman_func",
    "RockPhy.Props.C82_mismatch",
    "RockPhy.Props.C82_single_fraction",
    "RockPhy.Props.C82_start",
    "RockPhy.Props.C82_Berryman_sc_bounds",
    "RockPhy.Props.C82_DEM",
    "RockPhy.Props.C82_DEM_monotone",
    "RockPhy.Props.C82_DEM_fractions",
    "RockPhy.Props.C82_Berryman_DEM",
    "RockPhy.Props.C82_DEM_equal_shear",
    "RockPhy.Props.C82_DEM_unique",
    "RockPhy.Props.C82_DEM_exists_unique",
    "RockPhy.Props.C82_Berryman_DEM_exact",
    "RockPhy.Props.C82_Berryman_sc_exists",
    "RockPhy.Props.C82_Berryman_sc"
   ],
   "note": ""
  },
  {
   "property": "C83",
   "status": "proved",
   "theorems": [
    "RockPhy.Props.C83_crack_por",
    "RockPhy.Props.C83_Dilute_crack",
    "RockPhy.Props.C83_hudson"
   ],
   "note": ""
  },
  {
   "property": "C84",
   "status": "proved",
   "theorems": [
    "RockPhy.Props.C84_OConnell_Budiansky",
    "RockPhy.Props.C84_OConnell_Budiansky_fl",
    "RockPhy.Props.C84_root_exists"
   ],
   "note": ""
  },
  {
   "property": "C85",
   "status": "proved",
   "theorems": [
    "RockPhy.Props.C85_Backus_is_stack_response"
   ],
   "note": ""
  },
  {
   "property": "C86",
   "status": "proved",
   "theorems": [
    "RockPhy.Props.C86_hertzmindlin",
    "RockPhy.Props.C86_Digby"
   ],
   "note": ""
  },
  {
   "property": "C87",
   "status": "proved",
   "theorems": [
    "RockPhy.Props.C87_contactcement"
   ],
   "note": ""
  },
  {
   "property": "C88",
   "status": "proved",
   "theorems": [
    "RockPhy.Props.C88_Brown_Korringa_dry2sat",
    "RockPhy.Props.C88_Brown_Korringa_sat2dry",
    "RockPhy.Props.C88_Brown_Korringa_sub",
    "RockPhy.Props.C88_Gassmann"
   ],
   "note": ""
  },
  {
   "property": "C89",
   "status": "proved",
   "theorems": [
    "RockPhy.Props.C89_Thomsen_first_order",
    "RockPhy.Props.C89_Thomsen_near_vertical",
    "RockPhy.Props.C89_Thomsen_horizontal",
    "RockPhy.Props.C89_Tsvankin_planes"
   ],
   "note": ""
  },
  {
   "property": "C90",
   "status": "proved",
   "theorems": [
    "RockPhy.Props.C90_cst_vels",
    "RockPhy.Props.C90_cst_vels_beyond",
    "RockPhy.Props.C90_beyond_nan",
    "RockPhy.Props.C90_cal_v_const",
    "RockPhy.Props.C90_two_densities"
   ],
   "note": ""
  },
  {
   "property": "C91",
   "status": "proved",
   "theorems": [
    "RockPhy.Props.C91_bulk_bounds",
    "RockPhy.Props.C91_shear_bounds",
    "RockPhy.Props.C91_attained"
   ],
   "note": ""
  },
  {
   "property": "C92",
   "status": "proved",
   "theorems": [
    "RockPhy.Props.C92_lower",
    "RockPhy.Props.C92_upper",
    "RockPhy.Props.C92_isotropic",
    "RockPhy.Props.C92_bulk_any_order",
    "RockPhy.Props.C92_voigt_reuss",
    "RockPhy.Props.C92_unique",
    "RockPhy.Props.C92_exists",
    "RockPhy.Props.C92_uniform_shear"
   ],
   "note": ""
  },
  {
   "property": "C93",
   "status": "proved",
   "theorems": [
    "RockPhy.Props.C93_upper",
    "RockPhy.Props.C93_lower",
    "RockPhy.Props.C93_MT_average"
   ],
   "note": ""
  },
  {
   "property": "C94",
   "status": "proved",
   "theorems": [
    "RockPhy.Props.C94_panda_lake",
    "RockPhy.Props.C94_kozeny_carman",
    "RockPhy.Props.C94_bernabe",
    "RockPhy.Props.C94_fredrich"
   ],
   "note": ""
  },
  {
   "property": "C95",
   "status": "proved",
   "theorems": [
    "RockPhy.Props.C95_hti",
    "RockPhy.Props.C95_ortho",
    "RockPhy.Props.C95_exists"
   ],
   "note": ""
  },
  {
   "property": "C96",
   "status": "proved",
   "theorems": [
    "RockPhy.Props.C96_V",
    "RockPhy.Props.C96_permeability",
    "RockPhy.Props.C96_HS_lower",
    "RockPhy.Props.C96_Swiss_cheese",
    "RockPhy.Props.C96_VRH",
    "RockPhy.Props.C96_VRH_ordered",
    "RockPhy.Props.C96_VRH_perm",
    "RockPhy.Props.C96_Backus",
    "RockPhy.Props.C96_SC",
    "RockPhy.Props.C96_moduli_roundtrip",
    "RockPhy.Props.C96_fluid"
   ],
   "note": ""
  },
  {
   "property": "C97",
   "status": "proved",
   "theorems": [
    "RockPhy.Props.C97_together",
    "RockPhy.Props.C97_uni_iso",
    "RockPhy.Props.C97_iso_uni",
    "RockPhy.Props.C97_stiffness",
    "RockPhy.Props.C97_code_together",
    "RockPhy.Props.C97_code_uni_iso",
    "RockPhy.Props.C97_code_iso_uni",
    "RockPhy.Props.C97_code_stiffness",
    "RockPhy.Props.C97_C11_meant"
   ],
   "note": ""
  },
  {
   "property": "C98",
   "status": "proved",
   "theorems": [
    "RockPhy.Props.C98_steady",
    "RockPhy.Props.C98_friction",
    "RockPhy.Props.C98_drag",
    "RockPhy.Props.C98_code",
    "RockPhy.Props.C98_waves"
   ],
   "note": ""
  },
  {
   "property": "C99",
   "status": "proved",
   "theorems": [
    "RockPhy.Props.C99_utils",
    "RockPhy.Props.C99_Empirical",
    "RockPhy.Props.C99_Permeability",
    "RockPhy.Props.C99_EM",
    "RockPhy.Props.C99_GM",
    "RockPhy.Props.C99_BW",
    "RockPhy.Props.C99_Fluid",
    "RockPhy.Props.C99_AVO",
    "RockPhy.Props.C99_Anisotropy",
    "RockPhy.Props.C99_EM_loops",
    "RockPhy.Props.C99_GM_cement",
    "RockPhy.Props.C99_BW_mixtures",
    "RockPhy.Props.C99_matrices",
    "RockPhy.Props.C99_HS",
    "RockPhy.Props.C99_tortuosity",
    "RockPhy.Props.C99_EI_ref",
    "RockPhy.Props.C99_Brie",
    "RockPhy.Props.C99_PQ_vectorize",
    "RockPhy.Props.C99_disk",
    "RockPhy.Props.C99_sphere_lost",
    "RockPhy.Props.C99_empty_pore",
    "RockPhy.Props.C99_Berryman_func",
    "RockPhy.Props.C99_rest"
   ],
   "note": ""
  },
  {
   "property": "C100",
   "status": "proved",
   "theorems": [
    "RockPhy.Props.C100_isotropic",
    "RockPhy.Props.C100_anisotropic",
    "RockPhy.Props.C100_horizontal",
    "RockPhy.Props.C100_never_right"
   ],
   "note": ""
  },
  {
   "property": "C101",
   "status": "proved",
   "theorems": [
    "RockPhy.Props.C101_screening_plot",
    "RockPhy.Props.C101_screening_plot_error",
    "RockPhy.Props.C101_kde_plot",
    "RockPhy.Props.C101_kde_ignored",
    "RockPhy.Props.C101_kde_error",
    "RockPhy.Props.C101_kde_values",
    "RockPhy.Props.C101_object",
    "RockPhy.Props.C101_cst_plot",
    "RockPhy.Props.C101_cst_lines_end",
    "RockPhy.Props.C101_cement_diag_plot",
    "RockPhy.Props.C101_cement_workflow",
    "RockPhy.Props.C101_plot_rpt",
    "RockPhy.Props.C101_brine_line",
    "RockPhy.Props.C101_isolated",
    "RockPhy.Props.C101_session"
   ],
   "note": ""
  },
  {
   "property": "C102",
   "status": "proved",
   "theorems": [
    "RockPhy.Props.C102_utils",
    "RockPhy.Props.C102_Empirical",
    "RockPhy.Props.C102_Permeability",
    "RockPhy.Props.C102_EM",
    "RockPhy.Props.C102_GM",
    "RockPhy.Props.C102_BW",
    "RockPhy.Props.C102_Fluid",
    "RockPhy.Props.C102_AVO",
    "RockPhy.Props.C102_Anisotropy",
    "RockPhy.Props.C102_Aki_Richards_table",
    "RockPhy.Props.C102_Aki_Richards_angles",
    "RockPhy.Props.C102_Aki_Richards_number",
    "RockPhy.Props.C102_Aki_Richards_first_number",
    "RockPhy.Props.C102_Aki_Richards_sections",
    "RockPhy.Props.C102_Swiss_cheese_table",
    "RockPhy.Props.C102_Swiss_cheese_logs",
    "RockPhy.Props.C102_Swiss_cheese_numbers",
    "RockPhy.Props.C102_EI_ref_table",
    "RockPhy.Props.C102_EI_ref_mixed",
    "RockPhy.Props.C102_EI_ref_numbers",
    "RockPhy.Props.C102_None",
    "RockPhy.Props.C102_EM_loops",
    "RockPhy.Props.C102_BW_options",
    "RockPhy.Props.C102_logs",
    "RockPhy.Props.C102_mismatch"
   ],
   "note": ""
  },
  {
   "property": "C103",
   "status": "proved",
   "theorems": [
    "RockPhy.Props.C103_PQ_vectorize",
    "RockPhy.Props.C103_PQ_vectorize_fails",
    "RockPhy.Props.C103_PQ_vectorize_twice",
    "RockPhy.Props.C103_Berryman_sc",
    "RockPhy.Props.C103_Gassmann",
    "RockPhy.Props.C103_Gassmann_write",
    "RockPhy.Props.C103_SC",
    "RockPhy.Props.C103_ramm_porosity_segment",
    "RockPhy.Props.C103_diluting",
    "RockPhy.Props.C103_Biot_F",
    "RockPhy.Props.C103_cst_vels",
    "RockPhy.Props.C103_screening",
    "RockPhy.Props.C103_estimate_cem",
    "RockPhy.Props.C103_object",
    "RockPhy.Props.C103_kde_density",
    "RockPhy.Props.C103_plot_rpt"
   ],
   "note": ""
  },
  {
   "property": "C104",
   "status": "proved",
   "theorems": [
    "RockPhy.Props.C104_fluid_frame",
    "RockPhy.Props.C104_limits",
    "RockPhy.Props.C104_high_frequency",
    "RockPhy.Props.C104_rigid_frame"
   ],
   "note": ""
  },
  {
   "property": "C105",
   "status": "proved",
   "theorems": [
    "RockPhy.Props.C105_AVO_Aki_Richards",
    "RockPhy.Props.C105_AVO_zoeppritz",
    "RockPhy.Props.C105_AVO_AVO_abe",
    "RockPhy.Props.C105_AVO_AVO_ortho",
    "RockPhy.Props.C105_Anisotropy_Thomsen",
    "RockPhy.Props.C105_Anisotropy_Thomsen_Tsvankin",
    "RockPhy.Props.C105_Anisotropy_vel_azi_HTI",
    "RockPhy.Props.C105_Anisotropy_vel_azi_VTI",
    "RockPhy.Props.C105_Anisotropy_Bond_trans",
    "RockPhy.Props.C105_EM_SC",
    "RockPhy.Props.C105_Anisotropy_Backus",
    "RockPhy.Props.C105_Anisotropy_Backus_log",
    "RockPhy.Props.C105_EM_PQ_vectorize",
    "RockPhy.Props.C105_BW_dz_dp",
    "RockPhy.Props.C105_BW_pseudo_p_t",
    "RockPhy.Props.C105_BW_rho_K_co2",
    "RockPhy.Props.C105_BW_rho_K_gas",
    "RockPhy.Props.C105_BW_rho_K_oil",
    "RockPhy.Props.C105_BW_rho_K_go",
    "RockPhy.Props.C105_BW_rho_K_water",
    "RockPhy.Props.C105_BW_v_water",
    "RockPhy.Props.C105_BW_rho_K_brine",
    "RockPhy.Props.C105_BW_v_brine",
    "RockPhy.Props.C105_BW_co2_brine",
    "RockPhy.Props.C105_QI_cst_plot",
    "RockPhy.Props.C105_QI_cement_diag_plot",
    "RockPhy.Props.C105_EM_VRH",
    "RockPhy.Props.C105_EM_cripor",
    "RockPhy.Props.C105_EM_HS",
    "RockPhy.Props.C105_EM_hudson",
    "RockPhy.Props.C105_EM_hudson_rand",
    "RockPhy.Props.C105_EM_hudson_cone",
    "RockPhy.Props.C105_EM_Swiss_cheese",
    "RockPhy.Props.C105_EM_OConnell_Budiansky",
    "RockPhy.Props.C105_EM_PQ",
    "RockPhy.Props.C105_EM_SC_dilute",
    "RockPhy.Props.C105_EM_MT_average",
    "RockPhy.Props.C105_EM_cripor_reuss",
    "RockPhy.Props.C105_EM_Eshelby_Cheng",
    "RockPhy.Props.C105_EM_hudson_ortho",
    "RockPhy.Props.C105_EM_Dilute_crack",
    "RockPhy.Props.C105_EM_OC_R_funcs",
    "RockPhy.Props.C105_EM_DEM",
    "RockPhy.Props.C105_EM_OConnell_Budiansky_fl",
    "RockPhy.Props.C105_Empirical_krief",
    "RockPhy.Props.C105_Empirical_esti_VS",
    "RockPhy.Props.C105_Empirical_han",
    "RockPhy.Props.C105_Empirical_ehrenberg",
    "RockPhy.Props.C105_Empirical_ramm_porosity",
    "RockPhy.Props.C105_Empirical_empirical_StPeter",
    "RockPhy.Props.C105_Empirical_Scherbaum",
    "RockPhy.Props.C105_Empirical_Sclater",
    "RockPhy.Props.C105_Empirical_Storvoll",
    "RockPhy.Props.C105_Empirical_Hillis",
    "RockPhy.Props.C105_Empirical_hjelstuen",
    "RockPhy.Props.C105_Empirical_Cp",
    "RockPhy.Props.C105_QI_estimate_cem",
    "RockPhy.Props.C105_QI_init",
    "RockPhy.Props.C105_Fluid_Brie",
    "RockPhy.Props.C105_Fluid_Biot_HF",
    "RockPhy.Props.C105_Fluid_Geertsma_Smit_HF",
    "RockPhy.Props.C105_Fluid_Geertsma_Smit_LF",
    "RockPhy.Props.C105_Fluid_Gassmann",
    "RockPhy.Props.C105_Fluid_Gassmann_sub",
    "RockPhy.Props.C105_Fluid_vels",
    "RockPhy.Props.C105_Fluid_Gassmann_vels",
    "RockPhy.Props.C105_Fluid_Gassmann_approx",
    "RockPhy.Props.C105_Fluid_Mavko_Jizba",
    "RockPhy.Props.C105_Fluid_Squirt_anisotropic",
    "RockPhy.Props.C105_Fluid_White_Dutta_Ode",
    "RockPhy.Props.C105_Fluid_Brown_Korringa_dry2sat",
    "RockPhy.Props.C105_Fluid_Brown_Korringa_sat2dry",
    "RockPhy.Props.C105_GM_ThomasStieber",
    "RockPhy.Props.C105_GM_silty_shale",
    "RockPhy.Props.C105_GM_shaly_sand",
    "RockPhy.Props.C105_GM_contactcement",
    "RockPhy.Props.C105_GM_hertzmindlin",
    "RockPhy.Props.C105_GM_softsand",
    "RockPhy.Props.C105_GM_Walton",
    "RockPhy.Props.C105_GM_johnson",
    "RockPhy.Props.C105_GM_stiffsand",
    "RockPhy.Props.C105_GM_constantcement",
    "RockPhy.Props.C105_GM_MUHS",
    "RockPhy.Props.C105_GM_pcm",
    "RockPhy.Props.C105_GM_vpcm",
    "RockPhy.Props.C105_Fluid_Brown_Korringa_sub",
    "RockPhy.Props.C105_Empirical_yu_segment_trend",
    "RockPhy.Props.C105_Empirical_Japsen",
    "RockPhy.Props.C105_Empirical_ramm_porosity_segment",
    "RockPhy.Props.C105_GM_diluting",
    "RockPhy.Props.C105_GM_Digby",
    "RockPhy.Props.C105_Permeability_Kozeny_Carman",
    "RockPhy.Props.C105_Permeability_Kozeny_Carman_Percolation",
    "RockPhy.Props.C105_Permeability_Owolabi",
    "RockPhy.Props.C105_Permeability_Perm_logs",
    "RockPhy.Props.C105_Permeability_Panda_Lake",
    "RockPhy.Props.C105_Permeability_Panda_Lake_cem",
    "RockPhy.Props.C105_Permeability_Revil",
    "RockPhy.Props.C105_Permeability_Fredrich",
    "RockPhy.Props.C105_Permeability_Bloch",
    "RockPhy.Props.C105_Permeability_Bernabe",
    "RockPhy.Props.C105_QI_kde_plot",
    "RockPhy.Props.C105_QI_screening_plot",
    "RockPhy.Props.C105_QI_matrix_modulus",
    "RockPhy.Props.C105_QI_matrix_modulus_scalar",
    "RockPhy.Props.C105_QI_den_matrix",
    "RockPhy.Props.C105_QI_den_matrix_scalar",
    "RockPhy.Props.C105_QI_normalize",
    "RockPhy.Props.C105_QI_cal_v_const",
    "RockPhy.Props.C105_QI_cal_v_const_scalar",
    "RockPhy.Props.C105_QI_cst_vels",
    "RockPhy.Props.C105_QI_screening",
    "RockPhy.Props.C105_QI_plot_rpt",
    "RockPhy.Props.C105_EM_Berryman_func",
    "RockPhy.Props.C105_EM_Berryman_sc",
    "RockPhy.Props.C105_EM_Berryman_DEM",
    "RockPhy.Props.C105_EM_SC_flex",
    "RockPhy.Props.C105_AVO_AVO_HTI",
    "RockPhy.Props.C105_AVO_EI_ref_angle",
    "RockPhy.Props.C105_AVO_EI_ref",
    "RockPhy.Props.C105_AVO_Aki_Richards_log",
    "RockPhy.Props.C105_EM_Swiss_cheese_log",
    "RockPhy.Props.C105_Fluid_Biot",
    "RockPhy.Props.C105_utils_V",
    "RockPhy.Props.C105_utils_poi",
    "RockPhy.Props.C105_utils_lame",
    "RockPhy.Props.C105_utils_M_from_V",
    "RockPhy.Props.C105_utils_write_HTI_matrix",
    "RockPhy.Props.C105_utils_write_VTI_compliance",
    "RockPhy.Props.C105_utils_write_VTI_matrix",
    "RockPhy.Props.C105_utils_write_matrix",
    "RockPhy.Props.C105_utils_write_iso",
    "RockPhy.Props.C105_utils_crack_por",
    "RockPhy.Props.C105_utils_v_to_c_VTI"
   ],
   "note": ""
  },
  {
   "property": "C106",
   "status": "proved",
   "theorems": [
    "RockPhy.Props.C106_rejected",
    "RockPhy.Props.C106_accepted",
    "RockPhy.Props.C106_order",
    "RockPhy.Props.C106_defaults",
    "RockPhy.Props.C106_methods_rejected",
    "RockPhy.Props.C106_methods_accepted",
    "RockPhy.Props.C106_methods_order",
    "RockPhy.Props.C106_methods_defaults",
    "RockPhy.Props.C106_EM_HS"
   ],
   "note": ""
  },
  {
   "property": "C107",
   "status": "proved",
   "theorems": [
    "RockPhy.Props.C107_exists_unique",
    "RockPhy.Props.C107_swap",
    "RockPhy.Props.C107_bounds",
    "RockPhy.Props.C107_fixed",
    "RockPhy.Props.C107_converges",
    "RockPhy.Props.C107_rate",
    "RockPhy.Props.C107_limit",
    "RockPhy.Props.C107_void",
    "RockPhy.Props.C107_void_unique",
    "RockPhy.Props.C107_void_negative",
    "RockPhy.Props.C107_void_no_limit",
    "RockPhy.Props.C107_void_converges",
    "RockPhy.Props.C107_void_small",
    "RockPhy.Props.C107_void_same_limit",
    "RockPhy.Props.C107_void_unstable"
   ],
   "note": ""
  },
  {
   "property": "C108",
   "status": "proved",
   "theorems": [
    "RockPhy.Props.C108_utils",
    "RockPhy.Props.C108_bounds",
    "RockPhy.Props.C108_cracks",
    "RockPhy.Props.C108_PQ",
    "RockPhy.Props.C108_inclusions",
    "RockPhy.Props.C108_GM",
    "RockPhy.Props.C108_Fluid",
    "RockPhy.Props.C108_dispersion",
    "RockPhy.Props.C108_Anisotropy",
    "RockPhy.Props.C108_AVO",
    "RockPhy.Props.C108_Permeability",
    "RockPhy.Props.C108_Fredrich",
    "RockPhy.Props.C108_Backus",
    "RockPhy.Props.C108_EI_ref",
    "RockPhy.Props.C108_QI",
    "RockPhy.Props.C108_estimate_cem",
    "RockPhy.Props.C108_Berryman_func",
    "RockPhy.Props.C108_johnson",
    "RockPhy.Props.C108_johnson_violated",
    "RockPhy.Props.C108_Fredrich_violated",
    "RockPhy.Props.C108_EI_ref_unnormalised",
    "RockPhy.Props.C108_Brown_Korringa",
    "RockPhy.Props.C108_Brown_Korringa_sub"
   ],
   "note": ""
  },
  {
   "property": "C109",
   "status": "proved",
   "theorems": [
    "RockPhy.Props.C109_utils_V",
    "RockPhy.Props.C109_utils_poi",
    "RockPhy.Props.C109_utils_lame",
    "RockPhy.Props.C109_utils_M_from_V",
    "RockPhy.Props.C109_utils_write_HTI_matrix",
    "RockPhy.Props.C109_utils_write_VTI_compliance",
    "RockPhy.Props.C109_utils_write_VTI_matrix",
    "RockPhy.Props.C109_utils_write_matrix",
    "RockPhy.Props.C109_utils_write_iso",
    "RockPhy.Props.C109_utils_crack_por",
    "RockPhy.Props.C109_utils_v_to_c_VTI",
    "RockPhy.Props.C109_EM_VRH",
    "RockPhy.Props.C109_EM_cripor",
    "RockPhy.Props.C109_EM_cripor_reuss",
    "RockPhy.Props.C109_EM_HS",
    "RockPhy.Props.C109_EM_Eshelby_Cheng",
    "RockPhy.Props.C109_EM_hudson",
    "RockPhy.Props.C109_EM_hudson_rand",
    "RockPhy.Props.C109_EM_hudson_ortho",
    "RockPhy.Props.C109_EM_hudson_cone",
    "RockPhy.Props.C109_EM_Swiss_cheese",
    "RockPhy.Props.C109_EM_SC",
    "RockPhy.Props.C109_EM_Dilute_crack",
    "RockPhy.Props.C109_EM_OConnell_Budiansky",
    "RockPhy.Props.C109_EM_OC_R_funcs",
    "RockPhy.Props.C109_EM_SC_dilute",
    "RockPhy.Props.C109_EM_SC_flex",
    "RockPhy.Props.C109_EM_MT_average",
    "RockPhy.Props.C109_GM_ThomasStieber",
    "RockPhy.Props.C109_GM_silty_shale",
    "RockPhy.Props.C109_GM_shaly_sand",
    "RockPhy.Props.C109_GM_contactcement",
    "RockPhy.Props.C109_GM_hertzmindlin",
    "RockPhy.Props.C109_GM_softsand",
    "RockPhy.Props.C109_GM_Walton",
    "RockPhy.Props.C109_GM_johnson",
    "RockPhy.Props.C109_GM_stiffsand",
    "RockPhy.Props.C109_GM_constantcement",
    "RockPhy.Props.C109_GM_MUHS",
    "RockPhy.Props.C109_Fluid_Biot_HF",
    "RockPhy.Props.C109_Fluid_Geertsma_Smit_HF",
    "RockPhy.Props.C109_Fluid_Geertsma_Smit_LF",
    "RockPhy.Props.C109_Fluid_Gassmann",
    "RockPhy.Props.C109_Fluid_Gassmann_sub",
    "RockPhy.Props.C109_Fluid_vels",
    "RockPhy.Props.C109_Fluid_Gassmann_vels",
    "RockPhy.Props.C109_Fluid_Gassmann_approx",
    "RockPhy.Props.C109_Fluid_Mavko_Jizba",
    "RockPhy.Props.C109_Fluid_Squirt_anisotropic",
    "RockPhy.Props.C109_Anisotropy_Thomsen",
    "RockPhy.Props.C109_Anisotropy_Thomsen_Tsvankin",
    "RockPhy.Props.C109_Anisotropy_Backus",
    "RockPhy.Props.C109_Anisotropy_Backus_log",
    "RockPhy.Props.C109_Anisotropy_vel_azi_HTI",
    "RockPhy.Props.C109_Anisotropy_vel_azi_VTI",
    "RockPhy.Props.C109_Anisotropy_Bond_trans",
    "RockPhy.Props.C109_AVO_AVO_HTI",
    "RockPhy.Props.C109_AVO_Aki_Richards",
    "RockPhy.Props.C109_AVO_zoeppritz",
    "RockPhy.Props.C109_AVO_AVO_abe",
    "RockPhy.Props.C109_AVO_AVO_ortho",
    "RockPhy.Props.C109_BW_dz_dp",
    "RockPhy.Props.C109_BW_pseudo_p_t",
    "RockPhy.Props.C109_BW_rho_K_co2",
    "RockPhy.Props.C109_BW_rho_K_gas",
    "RockPhy.Props.C109_BW_rho_K_oil",
    "RockPhy.Props.C109_BW_rho_K_go",
    "RockPhy.Props.C109_BW_v_water",
    "RockPhy.Props.C109_BW_rho_K_water",
    "RockPhy.Props.C109_BW_v_brine",
    "RockPhy.Props.C109_BW_rho_K_brine",
    "RockPhy.Props.C109_Empirical_krief",
    "RockPhy.Props.C109_Empirical_esti_VS",
    "RockPhy.Props.C109_Empirical_han",
    "RockPhy.Props.C109_Empirical_ehrenberg",
    "RockPhy.Props.C109_Empirical_ramm_porosity",
    "RockPhy.Props.C109_Empirical_ramm_porosity_segment",
    "RockPhy.Props.C109_Empirical_empirical_StPeter",
    "RockPhy.Props.C109_Empirical_Scherbaum",
    "RockPhy.Props.C109_Empirical_Sclater",
    "RockPhy.Props.C109_Empirical_Storvoll",
    "RockPhy.Props.C109_Empirical_Hillis",
    "RockPhy.Props.C109_Empirical_hjelstuen",
    "RockPhy.Props.C109_Empirical_Cp",
    "RockPhy.Props.C109_Permeability_Kozeny_Carman",
    "RockPhy.Props.C109_Permeability_Kozeny_Carman_Percolation",
    "RockPhy.Props.C109_Permeability_Owolabi",
    "RockPhy.Props.C109_Permeability_Perm_logs",
    "RockPhy.Props.C109_Permeability_Panda_Lake",
    "RockPhy.Props.C109_Permeability_Panda_Lake_cem",
    "RockPhy.Props.C109_Permeability_Revil",
    "RockPhy.Props.C109_Permeability_Fredrich",
    "RockPhy.Props.C109_Permeability_Bloch",
    "RockPhy.Props.C109_Permeability_Bernabe",
    "RockPhy.Props.C109_QI_den_matrix",
    "RockPhy.Props.C109_QI_normalize",
    "RockPhy.Props.C109_QI_cst_vels",
    "RockPhy.Props.C109_QI_cal_v_const",
    "RockPhy.Props.C109_real_continuousOn",
    "RockPhy.Props.C109_limit",
    "RockPhy.Props.C109_Fluid_Brie",
    "RockPhy.Props.C109_Fluid_Brie_jump",
    "RockPhy.Props.C109_BW_co2_brine_Wood",
    "RockPhy.Props.C109_BW_co2_brine_Brie",
    "RockPhy.Props.C109_GM_pcm",
    "RockPhy.Props.C109_GM_vpcm",
    "RockPhy.Props.C109_GM_diluting",
    "RockPhy.Props.C109_GM_diluting_jump",
    "RockPhy.Props.C109_EM_PQ_oblate",
    "RockPhy.Props.C109_EM_PQ_prolate",
    "RockPhy.Props.C109_EM_PQ_jump",
    "RockPhy.Props.C109_EM_DEM_oblate",
    "RockPhy.Props.C109_Empirical_yu_jump",
    "RockPhy.Props.C109_Empirical_Japsen_jump",
    "RockPhy.Props.C109_QI_matrix_modulus",
    "RockPhy.Props.C109_QI_screening",
    "RockPhy.Props.C109_Fluid_Brown_Korringa_dry2sat",
    "RockPhy.Props.C109_Fluid_Brown_Korringa_sat2dry",
    "RockPhy.Props.C109_AVO_EI_ref"
   ],
   "note": ""
  },
  {
   "property": "C110",
   "status": "proved",
   "theorems": [
    "RockPhy.Props.C110_utils_V",
    "RockPhy.Props.C110_utils_poi",
    "RockPhy.Props.C110_utils_lame",
    "RockPhy.Props.C110_utils_M_from_V",
    "RockPhy.Props.C110_utils_crack_por",
    "RockPhy.Props.C110_EM_cripor",
    "RockPhy.Props.C110_EM_cripor_reuss",
    "RockPhy.Props.C110_EM_HS",
    "RockPhy.Props.C110_EM_Eshelby_Cheng",
    "RockPhy.Props.C110_EM_hudson",
    "RockPhy.Props.C110_EM_hudson_rand",
    "RockPhy.Props.C110_EM_PQ",
    "RockPhy.Props.C110_EM_Swiss_cheese",
    "RockPhy.Props.C110_EM_Dilute_crack",
    "RockPhy.Props.C110_EM_OConnell_Budiansky",
    "RockPhy.Props.C110_EM_OC_R_funcs",
    "RockPhy.Props.C110_EM_DEM",
    "RockPhy.Props.C110_EM_SC_dilute",
    "RockPhy.Props.C110_EM_MT_average",
    "RockPhy.Props.C110_GM_ThomasStieber",
    "RockPhy.Props.C110_GM_silty_shale",
    "RockPhy.Props.C110_GM_shaly_sand",
    "RockPhy.Props.C110_GM_contactcement",
    "RockPhy.Props.C110_GM_hertzmindlin",
    "RockPhy.Props.C110_GM_softsand",
    "RockPhy.Props.C110_GM_Walton",
    "RockPhy.Props.C110_GM_stiffsand",
    "RockPhy.Props.C110_GM_constantcement",
    "RockPhy.Props.C110_GM_MUHS",
    "RockPhy.Props.C110_GM_pcm",
    "RockPhy.Props.C110_GM_vpcm",
    "RockPhy.Props.C110_Fluid_Brie",
    "RockPhy.Props.C110_Fluid_Biot_HF",
    "RockPhy.Props.C110_Fluid_Geertsma_Smit_HF",
    "RockPhy.Props.C110_Fluid_Geertsma_Smit_LF",
    "RockPhy.Props.C110_Fluid_Gassmann",
    "RockPhy.Props.C110_Fluid_Gassmann_sub",
    "RockPhy.Props.C110_Fluid_vels",
    "RockPhy.Props.C110_Fluid_Gassmann_vels",
    "RockPhy.Props.C110_Fluid_Gassmann_approx",
    "RockPhy.Props.C110_Fluid_Mavko_Jizba",
    "RockPhy.Props.C110_Anisotropy_Thomsen",
    "RockPhy.Props.C110_Anisotropy_Thomsen_Tsvankin",
    "RockPhy.Props.C110_AVO_Aki_Richards",
    "RockPhy.Props.C110_AVO_zoeppritz",
    "RockPhy.Props.C110_AVO_AVO_abe",
    "RockPhy.Props.C110_AVO_AVO_ortho",
    "RockPhy.Props.C110_BW_dz_dp",
    "RockPhy.Props.C110_BW_pseudo_p_t",
    "RockPhy.Props.C110_BW_rho_K_co2",
    "RockPhy.Props.C110_BW_rho_K_gas",
    "RockPhy.Props.C110_BW_rho_K_oil",
    "RockPhy.Props.C110_BW_rho_K_go",
    "RockPhy.Props.C110_BW_rho_K_water",
    "RockPhy.Props.C110_BW_v_brine",
    "RockPhy.Props.C110_BW_rho_K_brine",
    "RockPhy.Props.C110_BW_co2_brine",
    "RockPhy.Props.C110_Empirical_krief",
    "RockPhy.Props.C110_Empirical_esti_VS",
    "RockPhy.Props.C110_Empirical_han",
    "RockPhy.Props.C110_Empirical_ehrenberg",
    "RockPhy.Props.C110_Empirical_ramm_porosity",
    "RockPhy.Props.C110_Empirical_empirical_StPeter",
    "RockPhy.Props.C110_Empirical_Scherbaum",
    "RockPhy.Props.C110_Empirical_Sclater",
    "RockPhy.Props.C110_Empirical_Storvoll",
    "RockPhy.Props.C110_Empirical_Hillis",
    "RockPhy.Props.C110_Empirical_hjelstuen",
    "RockPhy.Props.C110_Empirical_Cp",
    "RockPhy.Props.C110_Permeability_Kozeny_Carman",
    "RockPhy.Props.C110_Permeability_Kozeny_Carman_Percolation",
    "RockPhy.Props.C110_Permeability_Owolabi",
    "RockPhy.Props.C110_Permeability_Perm_logs",
    "RockPhy.Props.C110_Permeability_Panda_Lake",
    "RockPhy.Props.C110_Permeability_Panda_Lake_cem",
    "RockPhy.Props.C110_Permeability_Revil",
    "RockPhy.Props.C110_Permeability_Fredrich",
    "RockPhy.Props.C110_Permeability_Bloch",
    "RockPhy.Props.C110_Permeability_Bernabe",
    "RockPhy.Props.C110_QI_matrix_modulus",
    "RockPhy.Props.C110_QI_den_matrix",
    "RockPhy.Props.C110_QI_screening",
    "RockPhy.Props.C110_QI_cst_vels",
    "RockPhy.Props.C110_QI_cal_v_const",
    "RockPhy.Props.C110_QI_rpt",
    "RockPhy.Props.C110_EM_HS_upper",
    "RockPhy.Props.C110_EM_HS_lower",
    "RockPhy.Props.C110_EM_PQ_spheroid",
    "RockPhy.Props.C110_EM_PQ_sphere",
    "RockPhy.Props.C110_EM_DEM_spheroid",
    "RockPhy.Props.C110_Fluid_Brie_power",
    "RockPhy.Props.C110_Fluid_Brie_violated",
    "RockPhy.Props.C110_BW_rho_K_go_default",
    "RockPhy.Props.C110_BW_rho_K_go_given",
    "RockPhy.Props.C110_BW_co2_brine_saturation",
    "RockPhy.Props.C110_BW_v_water",
    "RockPhy.Props.C110_QI_matrix_modulus_shale",
    "RockPhy.Props.C110_EM_VRH",
    "RockPhy.Props.C110_QI_normalize",
    "RockPhy.Props.C110_AVO_EI_ref",
    "RockPhy.Props.C110_AVO_EI_ref_sample",
    "RockPhy.Props.C110_Empirical_yu_segment_trend",
    "RockPhy.Props.C110_Empirical_Japsen",
    "RockPhy.Props.C110_GM_diluting",
    "RockPhy.Props.C110_QI_screening_uncut"
   ],
   "note": ""
  },
  {
   "property": "C111",
   "status": "proved",
   "theorems": [
    "RockPhy.Props.C111_utils_V",
    "RockPhy.Props.C111_utils_poi",
    "RockPhy.Props.C111_utils_lame",
    "RockPhy.Props.C111_utils_M_from_V",
    "RockPhy.Props.C111_utils_crack_por",
    "RockPhy.Props.C111_EM_cripor",
    "RockPhy.Props.C111_EM_Swiss_cheese",
    "RockPhy.Props.C111_GM_silty_shale",
    "RockPhy.Props.C111_Fluid_Brie",
    "RockPhy.Props.C111_Fluid_Geertsma_Smit_LF",
    "RockPhy.Props.C111_Empirical_krief",
    "RockPhy.Props.C111_Empirical_han",
    "RockPhy.Props.C111_Empirical_ehrenberg",
    "RockPhy.Props.C111_Empirical_Scherbaum",
    "RockPhy.Props.C111_Empirical_Sclater",
    "RockPhy.Props.C111_Empirical_Storvoll",
    "RockPhy.Props.C111_Empirical_hjelstuen",
    "RockPhy.Props.C111_Empirical_Cp",
    "RockPhy.Props.C111_Permeability_Kozeny_Carman",
    "RockPhy.Props.C111_Permeability_Owolabi",
    "RockPhy.Props.C111_Permeability_Perm_logs",
    "RockPhy.Props.C111_Permeability_Panda_Lake",
    "RockPhy.Props.C111_Permeability_Panda_Lake_cem",
    "RockPhy.Props.C111_Permeability_Revil",
    "RockPhy.Props.C111_Permeability_Fredrich",
    "RockPhy.Props.C111_Permeability_Bloch",
    "RockPhy.Props.C111_Permeability_Bernabe",
    "RockPhy.Props.C111_GM_contactcement_positive",
    "RockPhy.Props.C111_GM_constantcement",
    "RockPhy.Props.C111_GM_MUHS",
    "RockPhy.Props.C111_GM_pcm",
    "RockPhy.Props.C111_GM_vpcm",
    "RockPhy.Props.C111_GM_pcm_stress",
    "RockPhy.Props.C111_EM_HS_upper",
    "RockPhy.Props.C111_EM_HS_lower",
    "RockPhy.Props.C111_EM_VRH",
    "RockPhy.Props.C111_QI_den_matrix",
    "RockPhy.Props.C111_EM_MT_average",
    "RockPhy.Props.C111_EM_hudson_rand",
    "RockPhy.Props.C111_EM_hudson",
    "RockPhy.Props.C111_EM_Dilute_crack",
    "RockPhy.Props.C111_EM_OConnell_Budiansky",
    "RockPhy.Props.C111_GM_shaly_sand",
    "RockPhy.Props.C111_GM_ThomasStieber",
    "RockPhy.Props.C111_GM_hertzmindlin",
    "RockPhy.Props.C111_GM_Walton",
    "RockPhy.Props.C111_GM_softsand",
    "RockPhy.Props.C111_GM_stiffsand",
    "RockPhy.Props.C111_GM_contactcement",
    "RockPhy.Props.C111_Fluid_Gassmann",
    "RockPhy.Props.C111_Fluid_vels",
    "RockPhy.Props.C111_QI_rpt",
    "RockPhy.Props.C111_Anisotropy_Thomsen",
    "RockPhy.Props.C111_AVO_Aki_Richards",
    "RockPhy.Props.C111_BW_pseudo_p_t",
    "RockPhy.Props.C111_BW_rho_K_oil",
    "RockPhy.Props.C111_BW_v_water",
    "RockPhy.Props.C111_BW_rho_K_water",
    "RockPhy.Props.C111_BW_v_brine",
    "RockPhy.Props.C111_BW_rho_K_brine",
    "RockPhy.Props.C111_Empirical_ramm_porosity",
    "RockPhy.Props.C111_Empirical_Hillis",
    "RockPhy.Props.C111_Empirical_esti_VS",
    "RockPhy.Props.C111_Permeability_Kozeny_Carman_Percolation",
    "RockPhy.Props.C111_EM_HS_violated",
    "RockPhy.Props.C111_Fluid_Gassmann_violated",
    "RockPhy.Props.C111_Fluid_Gassmann_numpy",
    "RockPhy.Props.C111_EM_HS_numpy",
    "RockPhy.Props.C111_utils_V_wide",
    "RockPhy.Props.C111_utils_poi_wide",
    "RockPhy.Props.C111_utils_lame_wide",
    "RockPhy.Props.C111_utils_M_from_V_wide",
    "RockPhy.Props.C111_utils_crack_por_wide",
    "RockPhy.Props.C111_EM_cripor_wide",
    "RockPhy.Props.C111_EM_Swiss_cheese_wide",
    "RockPhy.Props.C111_GM_silty_shale_wide",
    "RockPhy.Props.C111_Fluid_Brie_wide",
    "RockPhy.Props.C111_Fluid_Geertsma_Smit_LF_wide",
    "RockPhy.Props.C111_Empirical_krief_wide",
    "RockPhy.Props.C111_Empirical_han_wide",
    "RockPhy.Props.C111_Empirical_Sclater_wide",
    "RockPhy.Props.C111_Empirical_Cp_wide",
    "RockPhy.Props.C111_Permeability_Kozeny_Carman_wide",
    "RockPhy.Props.C111_Permeability_Owolabi_wide",
    "RockPhy.Props.C111_Permeability_Perm_logs_wide",
    "RockPhy.Props.C111_Permeability_Panda_Lake_wide",
    "RockPhy.Props.C111_Permeability_Panda_Lake_cem_wide",
    "RockPhy.Props.C111_Permeability_Revil_wide",
    "RockPhy.Props.C111_Permeability_Fredrich_wide",
    "RockPhy.Props.C111_Permeability_Bloch_wide",
    "RockPhy.Props.C111_Permeability_Bernabe_wide",
    "RockPhy.Props.C111_Fluid_Brie_dry",
    "RockPhy.Props.C111_GM_silty_shale_pure"
   ],
   "note": ""
  },
  {
   "property": "C112",
   "status": "proved",
   "theorems": [
    "RockPhy.Props.C112_Thomsen",
    "RockPhy.Props.C112_vel_azi_HTI",
    "RockPhy.Props.C112_vel_azi_VTI",
    "RockPhy.Props.C112_hudson_cone",
    "RockPhy.Props.C112_AVO_HTI",
    "RockPhy.Props.C112_AVO_ortho",
    "RockPhy.Props.C112_Aki_Richards",
    "RockPhy.Props.C112_zoeppritz",
    "RockPhy.Props.C112_EI_ref",
    "RockPhy.Props.C112_EI_ref_converted",
    "RockPhy.Props.C112_Bond_trans",
    "RockPhy.Props.C112_zoeppritz_violated"
   ],
   "note": ""
  },
  {
   "property": "C113",
   "status": "proved",
   "theorems": [
    "RockPhy.Props.C113_values",
    "RockPhy.Props.C113_shapes",
    "RockPhy.Props.C113_error",
    "RockPhy.Props.C113_always",
    "RockPhy.Props.C113_ignore",
    "RockPhy.Props.C113_default",
    "RockPhy.Props.C113_default_again",
    "RockPhy.Props.C113_once",
    "RockPhy.Props.C113_error_leaves",
    "RockPhy.Props.C113_mixed",
    "RockPhy.Props.C113_quiet"
   ],
   "note": ""
  },
  {
   "property": "C114",
   "status": "proved",
   "theorems": [
    "RockPhy.Props.C114_ehrenberg",
    "RockPhy.Props.C114_ehrenberg_km_violated",
    "RockPhy.Props.C114_ramm",
    "RockPhy.Props.C114_ramm_segment",
    "RockPhy.Props.C114_ramm_segment_violated",
    "RockPhy.Props.C114_Bloch",
    "RockPhy.Props.C114_Bloch_violated",
    "RockPhy.Props.C114_ThomasStieber",
    "RockPhy.Props.C114_crack_por",
    "RockPhy.Props.C114_StPeter_violated",
    "RockPhy.Props.C114_Hillis_km_violated",
    "RockPhy.Props.C114_Panda_Lake_violated",
    "RockPhy.Props.C114_Bernabe_violated",
    "RockPhy.Props.C114_Sclater",
    "RockPhy.Props.C114_hjelstuen"
   ],
   "note": ""
  }
 ]
}
