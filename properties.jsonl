{"id": "C01", "title": "Velocity/modulus conversion is a lossless round trip", "statement": "utils.M_from_V(rho, *utils.V(K, G, rho)) returns exactly (K, G), and utils.V applied to the result of utils.M_from_V(rho, vp, vs) returns exactly (vp, vs), with GPa, g/cm3 and m/s units.", "quantifier": "every density > 0, every shear modulus >= 0 and bulk modulus with K+4G/3 >= 0; every vp, vs >= 0 for the other direction", "why_tests_cant": "The inputs range over continua (real moduli, fractions, densities), so a finite set of sampled values cannot rule out a violating combination.", "anchors": ["rockphypy/utils.py: utils.V, utils.M_from_V"]}
{"id": "C02", "title": "Poisson ratio and Lame parameters are consistent", "statement": "utils.poi(K,G) lies strictly between -1 and 1/2, is unchanged when K and G are scaled by the same factor, and agrees with utils.lame: lambda = 2*G*nu/(1-2nu). It also equals the ratio obtained from the velocities of utils.V.", "quantifier": "every K > 0, G > 0, density > 0 and every positive scale factor", "why_tests_cant": "The inputs range over continua (real moduli, fractions, densities), so a finite set of sampled values cannot rule out a violating combination.", "anchors": ["rockphypy/utils.py: utils.poi, utils.lame, utils.V"]}
{"id": "C03", "title": "Stiffness matrix writers build matrices of the declared symmetry class", "statement": "write_iso, write_VTI_matrix, write_HTI_matrix, write_VTI_compliance and write_matrix return symmetric 6x6 matrices, with the zero pattern and the dependent entries (C12=C11-2C66, C23=C33-2C44, S66=2(S11-S12)) of the declared class; the isotropic matrix is both a VTI and an HTI matrix, and is positive definite exactly when K>0 and G>0.", "quantifier": "every choice of the independent constants", "why_tests_cant": "The inputs range over continua (real moduli, fractions, densities), so a finite set of sampled values cannot rule out a violating combination.", "anchors": ["rockphypy/utils.py: utils.write_iso, utils.write_VTI_matrix, utils.write_HTI_matrix, utils.write_VTI_compliance, utils.write_matrix"]}
{"id": "C04", "title": "VTI stiffnesses are recovered from exact VTI phase velocities", "statement": "Feeding utils.v_to_c_VTI with the phase velocities that Anisotropy.vel_azi_VTI computes at 0, 45 and 90 degrees for a VTI stiffness matrix returns that same matrix.", "quantifier": "every VTI matrix with C33>=C44, C11>=C44, C66>=0, C44>=0, C13+C44>=0 and every density > 0", "why_tests_cant": "The inputs range over continua (real moduli, fractions, densities), so a finite set of sampled values cannot rule out a violating combination.", "anchors": ["rockphypy/utils.py: utils.v_to_c_VTI", "rockphypy/Anisotropy.py: Anisotropy.vel_azi_VTI"]}
{"id": "C05", "title": "Voigt-Reuss-Hill averages are ordered", "statement": "EM.VRH(volumes, M) returns (Voigt, Reuss, Hill) with Reuss <= Hill <= Voigt, and both Voigt and Reuss lie between the smallest and the largest modulus.", "quantifier": "every number of phases, all non-negative fractions summing to one, all positive moduli", "why_tests_cant": "The property quantifies over every list length as well as every real entry; tests only fix one short list.", "anchors": ["rockphypy/EM.py: EM.VRH"]}
{"id": "C06", "title": "VRH does not depend on phase order or on splitting a phase", "statement": "Permuting the phases of EM.VRH, or splitting one phase into two phases with the same modulus, leaves the three averages unchanged; identical moduli are returned as is; a length mismatch is an error, never a value.", "quantifier": "every list of phases, every permutation, every split", "why_tests_cant": "The property quantifies over every list length as well as every real entry; tests only fix one short list.", "anchors": ["rockphypy/EM.py: EM.VRH"]}
{"id": "C07", "title": "Critical porosity model endpoints and bounds", "statement": "EM.cripor returns the mineral moduli at zero porosity and (0,0) at the critical porosity, keeps the K/G ratio, and is non-increasing in porosity; above the critical porosity both moduli are negative. EM.cripor_reuss returns the Reuss average of mineral and fluid at the critical porosity, or their volume average with den=True.", "quantifier": "every K0,G0>0, 0<phic<=1, 0<=phi<=phic", "why_tests_cant": "The inputs range over continua (real moduli, fractions, densities), so a finite set of sampled values cannot rule out a violating combination.", "anchors": ["rockphypy/EM.py: EM.cripor, EM.cripor_reuss"]}
{"id": "C08", "title": "Hashin-Shtrikman bounds are ordered and tighter than Voigt-Reuss", "statement": "For both moduli, Reuss <= EM.HS(...,'lower') <= EM.HS(...,'upper') <= Voigt, when phase 1 is the stiffer one in both moduli, and the bounds grow with the stiff fraction. When phase 1 has the larger bulk but the smaller shear modulus, the bulk results come out reversed: 'upper' is strictly below 'lower'.", "quantifier": "every 0<=f<=1, K1>K2>0, G1>G2>0; mixed order for the violation", "why_tests_cant": "The inputs range over continua (real moduli, fractions, densities), so a finite set of sampled values cannot rule out a violating combination.", "anchors": ["rockphypy/EM.py: EM.HS, EM.VRH"]}
{"id": "C09", "title": "Hashin-Shtrikman endpoints and phase-swap symmetry", "statement": "EM.HS returns phase 1 at f=1 and phase 2 at f=0 for either bound, and HS(f,1,2,'upper') equals HS(1-f,2,1,'lower').", "quantifier": "every pair of positive moduli with K1!=K2 and G1!=G2, every 0<=f<=1", "why_tests_cant": "The inputs range over continua (real moduli, fractions, densities), so a finite set of sampled values cannot rule out a violating combination.", "anchors": ["rockphypy/EM.py: EM.HS"]}
{"id": "C10", "title": "Hashin-Shtrikman of two phases sharing a modulus", "statement": "Mixing a phase with itself should return that phase. For scalar inputs EM.HS instead divides by zero whenever K1=K2 or G1=G2; with numpy float inputs the division yields inf and the shared modulus is returned.", "quantifier": "every positive modulus, every fraction", "why_tests_cant": "The inputs range over continua (real moduli, fractions, densities), so a finite set of sampled values cannot rule out a violating combination.", "anchors": ["rockphypy/EM.py: EM.HS"]}
{"id": "C11", "title": "Mori-Tanaka average reproduces the Hashin-Shtrikman bounds", "statement": "EM.MT_average with the stiffer phase as matrix equals EM.HS 'upper', with the softer phase as matrix equals EM.HS 'lower', and in general returns the pure phase at f=0 and f=1 and stays between the two phases.", "quantifier": "every positive moduli and matrix, every 0<=f<=1", "why_tests_cant": "The inputs range over continua (real moduli, fractions, densities), so a finite set of sampled values cannot rule out a violating combination.", "anchors": ["rockphypy/EM.py: EM.MT_average, EM.HS"]}
{"id": "C12", "title": "Zero crack density leaves the background unchanged", "statement": "EM.hudson (both orders, both axes), EM.hudson_ortho, EM.hudson_cone and EM.hudson_rand return exactly the isotropic background when the crack density is zero; EM.Eshelby_Cheng returns it at zero porosity.", "quantifier": "every admissible background, inclusion and aspect ratio, every cone angle", "why_tests_cant": "The inputs range over continua (real moduli, fractions, densities), so a finite set of sampled values cannot rule out a violating combination.", "anchors": ["rockphypy/EM.py: EM.hudson, EM.hudson_ortho, EM.hudson_cone, EM.hudson_rand, EM.Eshelby_Cheng"]}
{"id": "C13", "title": "Hudson's HTI stiffness is the VTI stiffness with axes 1 and 3 exchanged", "statement": "EM.hudson(..., axis=1) equals EM.hudson(..., axis=3) with indices 1<->3 and 4<->6 exchanged, for either order; any other axis or order raises UnboundLocalError.", "quantifier": "every input, every axis and order value", "why_tests_cant": "The inputs range over continua (real moduli, fractions, densities), so a finite set of sampled values cannot rule out a violating combination.", "anchors": ["rockphypy/EM.py: EM.hudson"]}
{"id": "C14", "title": "Three crack sets superpose", "statement": "EM.hudson_ortho with a single non-zero crack density equals the first-order EM.hudson stiffness for that crack normal, and its correction is the sum of the three single-set corrections.", "quantifier": "every background and inclusion, every three crack densities", "why_tests_cant": "The inputs range over continua (real moduli, fractions, densities), so a finite set of sampled values cannot rule out a violating combination.", "anchors": ["rockphypy/EM.py: EM.hudson_ortho, EM.hudson"]}
{"id": "C15", "title": "Randomly oriented cracks are the isotropic average of aligned cracks", "statement": "EM.hudson_rand should return the bulk and shear modulus of the orientation average of EM.hudson's first-order stiffness. The bulk modulus does; the shear correction does not: it is 15 times too large.", "quantifier": "every background and inclusion, every crack density", "why_tests_cant": "The inputs range over continua (real moduli, fractions, densities), so a finite set of sampled values cannot rule out a violating combination.", "anchors": ["rockphypy/EM.py: EM.hudson_rand, EM.hudson"]}
{"id": "C16", "title": "Cone of crack normals is transversely isotropic", "statement": "EM.hudson_cone at theta=0 equals the aligned-crack stiffness, keeps the orientation invariant C_iijj for every cone angle, and should satisfy C66=(C11-C12)/2; that last relation fails for every tilted cone with non-zero crack density.", "quantifier": "every background, inclusion, crack density and cone angle", "why_tests_cant": "The inputs range over continua (real moduli, fractions, densities), so a finite set of sampled values cannot rule out a violating combination.", "anchors": ["rockphypy/EM.py: EM.hudson_cone, EM.hudson"]}
{"id": "C17", "title": "Inclusion shape factors are neutral for a matching inclusion", "statement": "EM.PQ and EM.PQ_vectorize return P=Q=1 whenever inclusion and matrix have the same moduli, for penny, sphere, oblate and prolate aspect ratio branches.", "quantifier": "every positive moduli, every aspect ratio >= 0", "why_tests_cant": "The inputs range over continua (real moduli, fractions, densities), so a finite set of sampled values cannot rule out a violating combination.", "anchors": ["rockphypy/EM.py: EM.PQ, EM.PQ_vectorize"]}
{"id": "C18", "title": "PQ_vectorize agrees with PQ entry by entry and keeps its arguments", "statement": "Each entry of EM.PQ_vectorize should equal EM.PQ at that entry and the arguments should be unchanged. True for all entries with aspect ratio different from one; an entry equal to one is evaluated at 0.999 and the caller's array is overwritten with 0.999. Lists of different lengths never give a result: the call raises IndexError, or ValueError if only the shear moduli differ in number and neither list of moduli has a single entry.", "quantifier": "every list of inclusions, also of different lengths", "why_tests_cant": "The property quantifies over every list length as well as every real entry; tests only fix one short list.", "anchors": ["rockphypy/EM.py: EM.PQ, EM.PQ_vectorize"]}
{"id": "C19", "title": "Inclusion models have the homogeneous medium as solution", "statement": "The residual of EM.Berryman_func vanishes, and the derivative of EM.DEM vanishes, when every phase has the moduli of the effective medium. For spherical inclusions the derivatives of EM.DEM always point from the moduli of the medium towards those of the inclusion.", "quantifier": "every number of phases, every fractions, every aspect ratio >= 0", "why_tests_cant": "The property quantifies over every list length as well as every real entry; tests only fix one short list.", "anchors": ["rockphypy/EM.py: EM.Berryman_func, EM.DEM"]}
{"id": "C20", "title": "Swiss cheese model", "statement": "EM.Swiss_cheese returns the mineral moduli at zero porosity, positive moduli not above the mineral, and is strictly decreasing in porosity.", "quantifier": "every Ks,Gs>0 and porosity >= 0", "why_tests_cant": "The inputs range over continua (real moduli, fractions, densities), so a finite set of sampled values cannot rule out a violating combination.", "anchors": ["rockphypy/EM.py: EM.Swiss_cheese"]}
{"id": "C21", "title": "Self-consistent iteration is monotone and bounded at every step", "statement": "EM.SC with any iteration count returns moduli that are positive, bounded by the mineral, non-increasing in the iteration count, and at one iteration the bulk modulus is the Swiss-cheese one. The iteration converges for every porosity: below one half to a positive solution of the self-consistent equations, from one half on, where these have no positive solution, to zero.", "quantifier": "every Ks,Gs>0, 0<=phi, every number of iterations", "why_tests_cant": "The iteration count is unbounded and the inputs are real.", "anchors": ["rockphypy/EM.py: EM.SC, EM.Swiss_cheese"]}
{"id": "C22", "title": "Dilute and self-consistent dry crack models agree to first order", "statement": "EM.Dilute_crack and EM.OConnell_Budiansky return the background at zero crack density; EM.OConnell_Budiansky returns zero moduli at crack density 9/16; both have the same initial slope.", "quantifier": "every K0,G0>0", "why_tests_cant": "The inputs range over continua (real moduli, fractions, densities), so a finite set of sampled values cannot rule out a violating combination.", "anchors": ["rockphypy/EM.py: EM.Dilute_crack, EM.OConnell_Budiansky"]}
{"id": "C23", "title": "Dilute spherical inclusion scheme", "statement": "EM.SC_dilute(…,'stress') for empty pores times the matrix moduli equals EM.Swiss_cheese; for inclusions softer than the matrix the strain form never exceeds the stress form; the returned values are ratios to the matrix, not moduli as documented (at f=0 it returns 1); an unknown mode raises.", "quantifier": "every positive matrix moduli, every inclusion with 0<=Ki<Km and 0<=Gi<Gm, every fraction >= 0, every mode string", "why_tests_cant": "The inputs range over continua (real moduli, fractions, densities), so a finite set of sampled values cannot rule out a violating combination.", "anchors": ["rockphypy/EM.py: EM.SC_dilute, EM.Swiss_cheese"]}
{"id": "C24", "title": "Self-consistent iteration with inclusions starts from the matrix", "statement": "EM.SC_flex with zero concentration should return the matrix moduli for any number of iterations. True from the first iteration on; at zero iterations the shear modulus returned is the bulk modulus of the matrix, and an inclusion whose shear modulus is the bulk modulus of the matrix gives no number. Its fixed points with empty inclusions are those of EM.SC.", "quantifier": "every matrix with positive moduli, every inclusion with other moduli, every iteration count", "why_tests_cant": "The iteration count is unbounded and the inputs are real.", "anchors": ["rockphypy/EM.py: EM.SC_flex, EM.SC"]}
{"id": "C25", "title": "Brie fluid mixing endpoints and order", "statement": "Fluid.Brie returns the gas modulus at Sw=0 and the liquid modulus at Sw=1, is non-decreasing in Sw, and with e=1 is the Voigt average, never below the Reuss (Wood) average.", "quantifier": "every Kw>=Kgas>0, 0<=Sw<=1, e>0", "why_tests_cant": "The inputs range over continua (real moduli, fractions, densities), so a finite set of sampled values cannot rule out a violating combination.", "anchors": ["rockphypy/Fluid.py: Fluid.Brie"]}
{"id": "C26", "title": "Gassmann saturation solves Gassmann's equation and is bounded", "statement": "Fluid.Gassmann keeps the shear modulus, returns a Ksat with Ksat/(K0-Ksat)=Kdry/(K0-Kdry)+Kf/(phi(K0-Kf)), Kdry<=Ksat<=K0, and is non-decreasing in the fluid modulus.", "quantifier": "every 0<=Kdry<K0 with Kdry<=(1-phi)K0, 0<Kf<K0, 0<phi<=1", "why_tests_cant": "The inputs range over continua (real moduli, fractions, densities), so a finite set of sampled values cannot rule out a violating combination.", "anchors": ["rockphypy/Fluid.py: Fluid.Gassmann"]}
{"id": "C27", "title": "Fluid substitution is path independent", "statement": "Fluid.Gassmann_sub from a fluid to itself is the identity, substituting 1->2->3 equals 1->3, 1->2->1 is the identity, and substituting into the Gassmann result for fluid 1 gives the Gassmann result for fluid 2.", "quantifier": "every admissible rock and every three fluids", "why_tests_cant": "The inputs range over continua (real moduli, fractions, densities), so a finite set of sampled values cannot rule out a violating combination.", "anchors": ["rockphypy/Fluid.py: Fluid.Gassmann_sub, Fluid.Gassmann, Fluid.Gassmann_approx"]}
{"id": "C28", "title": "Velocity-domain fluid substitution is path independent", "statement": "Fluid.Gassmann_vels with identical fluids returns the input velocities, agrees with Fluid.vels when started from a rock saturated by Fluid.vels (up to the factor 1000 between km/s and m/s), preserves rho*Vs^2, and going there and back is the identity.", "quantifier": "every admissible rock, two fluids and densities", "why_tests_cant": "The inputs range over continua (real moduli, fractions, densities), so a finite set of sampled values cannot rule out a violating combination.", "anchors": ["rockphypy/Fluid.py: Fluid.Gassmann_vels, Fluid.vels"]}
{"id": "C29", "title": "Anisotropic Gassmann (Brown-Korringa) directions are mutually inverse", "statement": "Fluid.Brown_Korringa_sat2dry undoes Fluid.Brown_Korringa_dry2sat and vice versa; substitution by the same fluid is the identity; compliance entries touching shear rows are unchanged for orthorhombic input.", "quantifier": "every dry compliance matrix (6x6), every mineral, fluid and porosity outside the stated singular cases", "why_tests_cant": "The inputs range over continua (real moduli, fractions, densities), so a finite set of sampled values cannot rule out a violating combination.", "anchors": ["rockphypy/Fluid.py: Fluid.Brown_Korringa_dry2sat, Fluid.Brown_Korringa_sat2dry, Fluid.Brown_Korringa_sub"]}
{"id": "C30", "title": "Brown-Korringa reduces to Gassmann for isotropic rock", "statement": "For an isotropic dry compliance, Fluid.Brown_Korringa_dry2sat returns the isotropic compliance of the Gassmann-saturated rock.", "quantifier": "every admissible isotropic rock and fluid", "why_tests_cant": "The inputs range over continua (real moduli, fractions, densities), so a finite set of sampled values cannot rule out a violating combination.", "anchors": ["rockphypy/Fluid.py: Fluid.Brown_Korringa_dry2sat, Fluid.Gassmann"]}
{"id": "C31", "title": "Biot high-frequency velocities are real and ordered", "statement": "Fluid.Biot_HF returns real velocities; squared fast and slow P velocities are the two roots of Biot's characteristic equation; fast >= slow; the shear velocity coincides with Fluid.Geertsma_Smit_HF, whose squared P velocity is exactly the sum of the squared fast and slow velocities and so never underestimates the fast one.", "quantifier": "every physically admissible frame, fluid and tortuosity > 1", "why_tests_cant": "The inputs range over continua (real moduli, fractions, densities), so a finite set of sampled values cannot rule out a violating combination.", "anchors": ["rockphypy/Fluid.py: Fluid.Biot_HF, Fluid.Geertsma_Smit_HF"]}
{"id": "C32", "title": "Geertsma-Smit dispersion stays between its limits", "statement": "Fluid.Geertsma_Smit_LF lies between Vp0 and Vpinf and is non-decreasing in frequency.", "quantifier": "every 0<Vp0<=Vpinf, every positive frequency, porosity, viscosity, density, permeability", "why_tests_cant": "The inputs range over continua (real moduli, fractions, densities), so a finite set of sampled values cannot rule out a violating combination.", "anchors": ["rockphypy/Fluid.py: Fluid.Geertsma_Smit_LF"]}
{"id": "C33", "title": "Squirt flow keeps the high-pressure bulk compressibility", "statement": "Fluid.Squirt_anisotropic returns wet-frame compliances whose total compressibility equals the high-pressure one; equal compressibilities, or a vanishing denominator 2-S~_abab, give no number at all. It should return isotropic compliances for isotropic input; it does so only in a degenerate case, because of two misprinted terms.", "quantifier": "every pair of TI compliance arrays", "why_tests_cant": "The inputs range over continua (real moduli, fractions, densities), so a finite set of sampled values cannot rule out a violating combination.", "anchors": ["rockphypy/Fluid.py: Fluid.Squirt_anisotropic"]}
{"id": "C34", "title": "Thomsen parameters of an isotropic medium vanish", "statement": "Anisotropy.Thomsen and Thomsen_Tsvankin return zero anisotropy for isotropic stiffness and the isotropic velocities; Thomsen_Tsvankin on a VTI medium returns the Thomsen parameters in both vertical planes.", "quantifier": "every isotropic / VTI stiffness and density", "why_tests_cant": "The inputs range over continua (real moduli, fractions, densities), so a finite set of sampled values cannot rule out a violating combination.", "anchors": ["rockphypy/Anisotropy.py: Anisotropy.Thomsen, Anisotropy.Thomsen_Tsvankin"]}
{"id": "C35", "title": "Phase velocities are Christoffel eigenvalues", "statement": "rho*V^2 of each velocity returned by Anisotropy.vel_azi_VTI and vel_azi_HTI is an eigenvalue of the Christoffel matrix for that propagation direction, together they are all of them, VP is at least the shear velocity polarised in the same plane, and a stable medium has real positive velocities in every direction.", "quantifier": "every VTI/HTI stiffness with real velocities, every density and propagation angle", "why_tests_cant": "The inputs range over continua (real moduli, fractions, densities), so a finite set of sampled values cannot rule out a violating combination.", "anchors": ["rockphypy/Anisotropy.py: Anisotropy.vel_azi_VTI, Anisotropy.vel_azi_HTI"]}
{"id": "C36", "title": "Backus average of identical layers is the layer", "statement": "Anisotropy.Backus returns the isotropic constants when all layers share the same moduli, is independent of layer order and of splitting layers, and always satisfies C66>=C44 and the VTI stability conditions.", "quantifier": "every number of layers, fractions summing to one, positive moduli", "why_tests_cant": "The property quantifies over every list length as well as every real entry; tests only fix one short list.", "anchors": ["rockphypy/Anisotropy.py: Anisotropy.Backus"]}
{"id": "C37", "title": "Log Backus average", "statement": "Anisotropy.Backus_log equals the Backus average with thickness fractions, averages the density by thickness, and is unchanged by refining the layering.", "quantifier": "every log of increasing depths", "why_tests_cant": "The property quantifies over every list length as well as every real entry; tests only fix one short list.", "anchors": ["rockphypy/Anisotropy.py: Anisotropy.Backus_log"]}
{"id": "C38", "title": "Bond rotation keeps isotropic media invariant", "statement": "Anisotropy.Bond_trans should return an isotropic stiffness unchanged for every angle and axis. It is the identity at zero angle, gives the rotated stiffness at quarter turns and always returns a symmetric matrix, but for other angles the isotropic stiffness changes because a factor 2 is missing in the Bond matrix; an axis other than 1 or 3 raises.", "quantifier": "every angle, axis and symmetric stiffness", "why_tests_cant": "The inputs range over continua (real moduli, fractions, densities), so a finite set of sampled values cannot rule out a violating combination.", "anchors": ["rockphypy/Anisotropy.py: Anisotropy.Bond_trans"]}
{"id": "C39", "title": "Hertz-Mindlin pressure scaling", "statement": "GM.hertzmindlin moduli are positive, scale with the cube root of stress, increase with stress and coordination number and with the friction fraction f; f=0 gives G/K=3/5 and f=1 the no-slip ratio, the opposite of the documented meaning of f.", "quantifier": "every K0,G0>0, 0<=phi<1, Cn>0, sigma>0, 0<=f<=1", "why_tests_cant": "The inputs range over continua (real moduli, fractions, densities), so a finite set of sampled values cannot rule out a violating combination.", "anchors": ["rockphypy/GM.py: GM.hertzmindlin"]}
{"id": "C40", "title": "Walton's model equals Hertz-Mindlin with slip fraction", "statement": "GM.Walton and GM.hertzmindlin return the same moduli for every friction fraction.", "quantifier": "every admissible input", "why_tests_cant": "The inputs range over continua (real moduli, fractions, densities), so a finite set of sampled values cannot rule out a violating combination.", "anchors": ["rockphypy/GM.py: GM.Walton, GM.hertzmindlin"]}
{"id": "C41", "title": "Soft-sand and stiff-sand are modified Hashin-Shtrikman bounds", "statement": "GM.softsand (GM.stiffsand) equals EM.HS lower (upper) between the mineral and the Hertz-Mindlin end member with fraction 1-phi/phic; both return the mineral at phi=0, the Hertz-Mindlin moduli at phi=phic, and soft <= stiff in between.", "quantifier": "every admissible input with the mineral stiffer than the dry pack", "why_tests_cant": "The inputs range over continua (real moduli, fractions, densities), so a finite set of sampled values cannot rule out a violating combination.", "anchors": ["rockphypy/GM.py: GM.softsand, GM.stiffsand, GM.hertzmindlin", "rockphypy/EM.py: EM.HS"]}
{"id": "C42", "title": "Constant cement and increasing cement models interpolate their end members", "statement": "GM.constantcement and GM.MUHS return the mineral at phi=0 and the contact-cement moduli at the well-sorted end member porosity, and are the lower / upper modified Hashin-Shtrikman bounds.", "quantifier": "every admissible input", "why_tests_cant": "The inputs range over continua (real moduli, fractions, densities), so a finite set of sampled values cannot rule out a violating combination.", "anchors": ["rockphypy/GM.py: GM.constantcement, GM.MUHS, GM.contactcement"]}
{"id": "C43", "title": "Patchy cement end members", "statement": "GM.pcm reduces to the unconsolidated pack at zero cemented fraction and to the cemented pack at fraction one (at the end member porosity) and to the mineral at zero porosity; GM.vpcm with alpha=0/1 equals the stiff/soft variants and is non-increasing in alpha, so it lies between them; the switch between the two cement models at v_cem=v_ci is continuous. Between the end members the stiff and soft results are the exact Hashin-Shtrikman mixtures of the cemented pack and the pack without cement followed by the mixture with the mineral, vpcm is their weighted mean, and pcm is monotone in the cemented fraction. An unknown mode does not raise: it silently means soft, and equal end members divide by zero.", "quantifier": "every mineral, cement, stress, porosity up to critical, cemented fraction and alpha in [0,1], every mode string", "why_tests_cant": "The inputs range over continua (real moduli, fractions, densities), so a finite set of sampled values cannot rule out a violating combination.", "anchors": ["rockphypy/GM.py: GM.pcm, GM.vpcm"]}
{"id": "C44", "title": "Thomas-Stieber laminated/dispersed limits", "statement": "GM.ThomasStieber returns the clean sand porosity at vsh=0 and the shale porosity at vsh=1 for both branches, the dispersed branch switches from pore filling to floating grains exactly at vsh=phi_sand, is non-negative and never exceeds the laminated branch.", "quantifier": "every porosity pair in [0,1], every vsh in [0,1]", "why_tests_cant": "The inputs range over continua (real moduli, fractions, densities), so a finite set of sampled values cannot rule out a violating combination.", "anchors": ["rockphypy/GM.py: GM.ThomasStieber"]}
{"id": "C45", "title": "Shale/sand mixing models are Hashin-Shtrikman bounds", "statement": "GM.shaly_sand is EM.HS with the sand as comparison medium and returns the two end members at the ends. GM.silty_shale should be EM.HS lower: its shear modulus is and it returns the shale at C=1, but its bulk modulus is not, because one term uses the quartz shear modulus: without shale it returns Kq+4/3(Gq-Gsh) instead of Kq, which can lie outside both end members.", "quantifier": "every positive moduli with different end members", "why_tests_cant": "The inputs range over continua (real moduli, fractions, densities), so a finite set of sampled values cannot rule out a violating combination.", "anchors": ["rockphypy/GM.py: GM.silty_shale, GM.shaly_sand", "rockphypy/EM.py: EM.HS"]}
{"id": "C46", "title": "Digby's cubic has one admissible contact radius", "statement": "For positive stress GM.Digby selects exactly one root, the unique non-negative solution of Digby's contact-radius equation, and returns one bulk and one shear modulus, both positive and non-decreasing in stress and in the bonded radius; with zero bonded radius the model equals the smooth Hertz-Mindlin model. At zero stress all three roots are kept, so three (equal) values are returned.", "quantifier": "every admissible grain pack and stress, every bonded radius, every exact root finder", "why_tests_cant": "The inputs range over continua (real moduli, fractions, densities), so a finite set of sampled values cannot rule out a violating combination.", "anchors": ["rockphypy/GM.py: GM.Digby, GM.hertzmindlin"]}
{"id": "C47", "title": "Norris-Johnson model: paths and published stiffnesses", "statement": "GM.johnson returns finite stiffnesses and stresses for the paths 'together', 'uni_iso' and 'iso-uni', the stiffness being the same for every path; the documented spelling 'iso_uni' raises UnboundLocalError. The stiffnesses should be the orientation averages of the contact model: C13 is so only when both strains are equal or the grains have Poisson ratio zero (a parenthesis is misplaced in a logarithm), the published C11 stays bounded for small axial strain while the returned one diverges, and sigma11 on the third path never has the form of the other two.", "quantifier": "every compressed pack (both strains negative) and every path string", "why_tests_cant": "The inputs range over continua (real moduli, fractions, densities), so a finite set of sampled values cannot rule out a violating combination.", "anchors": ["rockphypy/GM.py: GM.johnson"]}
{"id": "C48", "title": "Approximate reflectivity is the textbook one, zero without contrast and antisymmetric", "statement": "AVO.Aki_Richards returns the Aki-Richards P and converted reflectivities and intercept of the two layers. It, AVO_HTI and AVO_ortho return zero for identical half spaces, and the P results change sign when the layers are exchanged. AVO.AVO_abe also returns zero intercept, second gradient and converted coefficients, but its first gradient is undefined (0/0) whenever the intercept is zero.", "quantifier": "every pair of layers, every angle between -90 and 90 degrees, every azimuth", "why_tests_cant": "The inputs range over continua (real moduli, fractions, densities), so a finite set of sampled values cannot rule out a violating combination.", "anchors": ["rockphypy/AVO.py: AVO.Aki_Richards, AVO.AVO_abe, AVO.AVO_HTI, AVO.AVO_ortho"]}
{"id": "C49", "title": "Two-term and three-term AVO agree on intercept and gradient", "statement": "The intercept and gradient returned by AVO.Aki_Richards are the first and third results of AVO.AVO_abe, and the P reflectivity of Aki_Richards is intercept + gradient*sin^2 + dVp/(2Vp)*sin^2*tan^2 with exactly these two numbers. The second result of AVO_abe is Shuey's gradient in terms of Poisson's ratios, its last one the slope at normal incidence of the converted reflectivity (times upper over average S velocity), and its fourth one that slope plus a term of third order in the velocity ratio.", "quantifier": "every pair of layers, every angle between -90 and 90 degrees", "why_tests_cant": "The inputs range over continua (real moduli, fractions, densities), so a finite set of sampled values cannot rule out a violating combination.", "anchors": ["rockphypy/AVO.py: AVO.Aki_Richards, AVO.AVO_abe"]}
{"id": "C50", "title": "Exact reflection coefficients at a welded interface", "statement": "AVO.zoeppritz at zero incidence returns Rpp=(Z2-Z1)/(Z2+Z1) and Rps=0. At other angles it should return the solution of the boundary (Zoeppritz) equations, and zero when the half spaces are identical; it does not: the ray parameter takes the angle in degrees as radians, so a homogeneous medium is reported to reflect (Rpp<0 at pi degrees), and one factor uses the transmitted instead of the reflected S wave, so the result is wrong even where the sine happens to be right, unless the S velocities or shear moduli agree.", "quantifier": "every pair of half spaces, every angle", "why_tests_cant": "The inputs range over continua (real moduli, fractions, densities), so a finite set of sampled values cannot rule out a violating combination.", "anchors": ["rockphypy/AVO.py: AVO.zoeppritz"]}
{"id": "C51", "title": "Elastic impedance of a log", "statement": "AVO.EI_ref at zero angle returns vp*rho for every sample whether or not normalised; at every angle it returns Connolly's elastic impedance up to one positive constant per log (one without normalisation), so reflectivities computed from normalised and raw logs agree. For a log with constant Vs/Vp the other four results are powers of Vs and rho whose logarithmic change is twice the first-order P-S, S-P, SV and SH reflectivity.", "quantifier": "every log of positive samples of any length, every angle between -90 and 90 degrees", "why_tests_cant": "The property quantifies over every list length as well as every real entry; tests only fix one short list.", "anchors": ["rockphypy/AVO.py: AVO.EI_ref"]}
{"id": "C52", "title": "Anisotropic reflectivity reduces consistently", "statement": "AVO.AVO_HTI and AVO.AVO_ortho return Rueger's reflectivity. AVO.AVO_HTI returns one row per azimuth and one column per angle; at azimuth 0 and 90 degrees it equals the two symmetry-plane results of AVO.AVO_ortho for the corresponding layers, opposite and mirrored azimuths give the same value, and for isotropic layers it does not depend on azimuth and equals AVO_ortho.", "quantifier": "every pair of HTI layers, every list of angles between -90 and 90 degrees and of azimuths", "why_tests_cant": "The inputs range over continua (real moduli, fractions, densities), so a finite set of sampled values cannot rule out a violating combination.", "anchors": ["rockphypy/AVO.py: AVO.AVO_HTI, AVO.AVO_ortho"]}
{"id": "C53", "title": "Gas compressibility derivative is the derivative", "statement": "BW.dz_dp is the exact derivative of the compressibility factor with respect to reduced pressure; the densities of BW.rho_K_gas and BW.rho_K_co2 obey p*M=rho*Z*R*T and their bulk moduli are the heat capacity ratio times rho*dP/drho of that same density. rho_K_co2 reduces temperature by 304.6 K, not by the critical 304.25 K.", "quantifier": "every pressure, temperature above absolute zero and gravity where the compressibility factor and its pressure slope are regular", "why_tests_cant": "The inputs range over continua (real moduli, fractions, densities), so a finite set of sampled values cannot rule out a violating combination.", "anchors": ["rockphypy/BW.py: BW.dz_dp, BW.rho_K_gas, BW.rho_K_co2"]}
{"id": "C54", "title": "Water and brine correlations; brine without salt is water", "statement": "BW.v_water, rho_K_water, v_brine and rho_K_brine return the Batzle-Wang polynomials, with modulus rho*v^2 in GPa; at zero salinity brine returns exactly the water density, modulus and velocity; a negative salinity gives no real velocity or modulus.", "quantifier": "every temperature, pressure and salinity", "why_tests_cant": "The inputs range over continua (real moduli, fractions, densities), so a finite set of sampled values cannot rule out a violating combination.", "anchors": ["rockphypy/BW.py: BW.rho_K_brine, BW.rho_K_water, BW.v_water, BW.v_brine"]}
{"id": "C55", "title": "CO2-brine mixture endpoints and ordering", "statement": "BW.co2_brine returns the pure brine at zero CO2 saturation and the pure CO2 at full saturation for Wood's and for Brie's law, its density is the volume average, the uniform modulus is the harmonic average and never exceeds the Brie modulus for an exponent up to one, and both lie between the moduli of CO2 and brine.", "quantifier": "every temperature, salinity, pressure, saturation in [0,1], both CO2 models, every exponent in (0,1]", "why_tests_cant": "The inputs range over continua (real moduli, fractions, densities), so a finite set of sampled values cannot rule out a violating combination.", "anchors": ["rockphypy/BW.py: BW.co2_brine"]}
{"id": "C56", "title": "Ramm porosity is the smaller of the two compaction trends", "statement": "Empirical.ramm_porosity_segment returns one value per depth, in the order of the depths: the smaller of the mechanical and the chemical compaction porosity at that depth.", "quantifier": "every depth list", "why_tests_cant": "The property quantifies over every list length as well as every real entry; tests only fix one short list.", "anchors": ["rockphypy/Emp.py: Empirical.ramm_porosity, Empirical.ramm_porosity_segment"]}
{"id": "C57", "title": "Segmented velocity trends stay aligned with depth", "statement": "Empirical.yu_segment_trend and Empirical.Japsen return the segmentwise trend values of the given depths. They return them grouped by segment instead of in the order given (a permutation), so entries are aligned with the input exactly when depths come in segment order, e.g. sorted; Empirical.Japsen also drops depths of 5300 m and more.", "quantifier": "every depth list", "why_tests_cant": "The property quantifies over every list length as well as every real entry; tests only fix one short list.", "anchors": ["rockphypy/Emp.py: Empirical.yu_segment_trend, Empirical.Japsen"]}
{"id": "C58", "title": "Kozeny-Carman permeability: zero, monotone, scaling and consistency of variants", "statement": "Permeability.Kozeny_Carman is zero at zero porosity, strictly increasing on [0,1) and proportional to d^2. Permeability.Kozeny_Carman_Percolation is the same law at the excess porosity (below the threshold it returns a negative value instead of zero). Permeability.Panda_Lake without grain-size spread and with tortuosity 2.5 is Kozeny_Carman, and spread with non-negative skewness never lowers it; Permeability.Panda_Lake_cem is 601.2 times Kozeny_Carman.", "quantifier": "every grain diameter, porosity and sorting parameter", "why_tests_cant": "The inputs range over continua (real moduli, fractions, densities), so a finite set of sampled values cannot rule out a violating combination.", "anchors": ["rockphypy/Perm.py: Permeability.Kozeny_Carman, Permeability.Kozeny_Carman_Percolation, Permeability.Panda_Lake, Permeability.Panda_Lake_cem"]}
{"id": "C59", "title": "Permeability grows with grain size in the surface-area model", "statement": "Permeability.Fredrich should increase with grain diameter; it decreases (as d^-2), because the specific surface is computed as proportional to the diameter.", "quantifier": "every porosity and diameter", "why_tests_cant": "The inputs range over continua (real moduli, fractions, densities), so a finite set of sampled values cannot rule out a violating combination.", "anchors": ["rockphypy/Perm.py: Permeability.Fredrich"]}
{"id": "C60", "title": "Matrix of a cementing sand: mass balance and Hill average", "statement": "QI.den_matrix conserves mass: (1-phi)*rho_matrix = vsh*rho_sh + (1-phi_c-vsh)*rho_grain + (phi_c-phi)*rho_cement. QI.matrix_modulus is the Voigt-Reuss-Hill average with the same volumes, lies between the smallest and largest component modulus, equals the common modulus when components are equal, and its clean-sand branch (vsh=0) gives the value the three-component formula would give.", "quantifier": "every porosity and shale fraction with phi<=phi_c<1 and vsh<=1-phi_c, every positive moduli", "why_tests_cant": "The inputs range over continua (real moduli, fractions, densities), so a finite set of sampled values cannot rule out a violating combination.", "anchors": ["rockphypy/QI.py: QI.matrix_modulus, QI.den_matrix"]}
{"id": "C61", "title": "Cement estimate interpolates between neighbouring templates", "statement": "QI.estimate_cem returns for every sample zero at or below the lowest template, and strictly between two neighbouring templates the linear interpolation of their seeds. Above the highest template it returns 0.1 whatever the seeds are. A sample exactly on an interior template should return that template's seed; it returns the interpolation between the two neighbours instead, which differs unless the three are collinear. Seeds passed as a list raise TypeError for every interior sample although a list is documented; repeated seeds raise IndexError there; the coordination number and the cement density arguments have no effect.", "quantifier": "every log, every list of seeds with increasing template velocities", "why_tests_cant": "The property quantifies over every list length as well as every real entry; tests only fix one short list.", "anchors": ["rockphypy/QI.py: QI.estimate_cem, QI.cal_v_const"]}
{"id": "C62", "title": "Mavko-Jizba squirt relations", "statement": "Given the velocities of a dry and a high-pressure frame, Fluid.Mavko_Jizba returns the bulk modulus that Gassmann's relation gives for the high-pressure frame, a shear modulus with 1/Gs=1/G_dry-4/15(1/K_dry-1/K_hp), never below the dry one and equal to it exactly when the frames have the same bulk modulus, and the two real velocities of those moduli at density rho+phi*rho_fl.", "quantifier": "every dry and high-pressure frame with K_dry<=K_hp for which the shear compliance stays positive, every admissible mineral, fluid and porosity", "why_tests_cant": "The inputs range over continua (real moduli, fractions, densities), so a finite set of sampled values cannot rule out a violating combination.", "anchors": ["rockphypy/Fluid.py: Fluid.Mavko_Jizba"]}
{"id": "C63", "title": "Contact cement stiffens the pack", "statement": "GM.contactcement returns positive moduli which do not decrease when more cement is added, for both cement distribution schemes; any scheme number other than 1 means scheme 2; a porosity above the critical one gives no real number.", "quantifier": "every grain and cement with non-negative Poisson ratio and cement shear modulus at least 2/5 of the grain's, every cement layer not thicker than the grain radius", "why_tests_cant": "The inputs range over continua (real moduli, fractions, densities), so a finite set of sampled values cannot rule out a violating combination.", "anchors": ["rockphypy/GM.py: GM.contactcement"]}
{"id": "C64", "title": "Diluting factor stays between zero and k below the crushing stress", "statement": "GM.diluting decreases from k at zero stress to 0 at the crushing stress sigma0; above sigma0 it should stay at zero: true for every non-integer exponent m (nan is replaced by zero), false for every positive integer m: for an even one it grows again, for an odd one it is negative.", "quantifier": "every k, sigma0, stress and exponent", "why_tests_cant": "The inputs range over continua (real moduli, fractions, densities), so a finite set of sampled values cannot rule out a violating combination.", "anchors": ["rockphypy/GM.py: GM.diluting"]}
{"id": "C65", "title": "Crack-tube permeability lies between the end members", "statement": "Permeability.Bernabe is the crack-fraction weighted average of the pure crack and the pure tube permeability, so it lies between the two for every crack fraction in [0,1] and equals one of them at the ends.", "quantifier": "every porosity, crack fraction and pore geometry", "why_tests_cant": "The inputs range over continua (real moduli, fractions, densities), so a finite set of sampled values cannot rule out a violating combination.", "anchors": ["rockphypy/Perm.py: Permeability.Bernabe"]}
{"id": "C66", "title": "Log-based permeability estimates vary in the physical direction", "statement": "The four estimates of Permeability.Perm_logs are the published Tixier, Timur, Coates and Coates-Dumanoir relations for the root of permeability, are non-negative, increase with porosity and decrease with irreducible water saturation. Permeability.Owolabi stays above its constants while Swi^2 <= 2655/3454 but can return negative permeability for larger saturations. Permeability.Revil vanishes at zero porosity, increases and scales with d^2; in millidarcy for d in micrometres it is d^2/(24*F^3) with Archie's formation factor F=phi^-1.5. Permeability.Bloch is positive, falls with poorer sorting, and log-permeability is linear in grain size.", "quantifier": "every porosity, saturation, sorting and grain size", "why_tests_cant": "The inputs range over continua (real moduli, fractions, densities), so a finite set of sampled values cannot rule out a violating combination.", "anchors": ["rockphypy/Perm.py: Permeability.Perm_logs, Permeability.Owolabi, Permeability.Revil, Permeability.Bloch"]}
{"id": "C67", "title": "Krief modulus-porosity relation", "statement": "Empirical.krief returns the mineral moduli at zero porosity, positive strictly decreasing bulk and shear moduli with an unchanged ratio, and a first result that is the Lame constant belonging to the other two.", "quantifier": "every mineral and every porosity in [0,1)", "why_tests_cant": "The inputs range over continua (real moduli, fractions, densities), so a finite set of sampled values cannot rule out a violating combination.", "anchors": ["rockphypy/Emp.py: Empirical.krief"]}
{"id": "C68", "title": "Shear velocity estimate lies between the shale and the sand line", "statement": "Empirical.esti_VS returns a value between the shale and the sand relation for every clay fraction in [0,1] and every velocity of at least 1127 m/s, and equals them for pure lithologies; at lower velocities it can divide by zero.", "quantifier": "every velocity and clay fraction", "why_tests_cant": "The inputs range over continua (real moduli, fractions, densities), so a finite set of sampled values cannot rule out a violating combination.", "anchors": ["rockphypy/Emp.py: Empirical.esti_VS"]}
{"id": "C69", "title": "Coordination number falls with porosity", "statement": "Empirical.Cp falls strictly from 20 at zero porosity to 0 at porosity one and is never negative.", "quantifier": "every porosity up to one", "why_tests_cant": "The inputs range over continua (real moduli, fractions, densities), so a finite set of sampled values cannot rule out a violating combination.", "anchors": ["rockphypy/Emp.py: Empirical.Cp"]}
{"id": "C70", "title": "Compaction trends are monotone; Sclater inverts its porosity curve", "statement": "Empirical.Sclater is the inverse function of phi=0.49 exp(-Z/3.7). Empirical.Scherbaum, Storvoll, hjelstuen and Hillis (above its pole) rise with depth, ehrenberg and ramm_porosity fall, Empirical.han falls with porosity and clay. Empirical.empirical_StPeter rises with pressure with 0<Vs<Vp for samples 1 and 2 and raises UnboundLocalError for any other sample. The straight lines are the published ones; Storvoll's solves z=1.76 v-4576 and Hillis' velocity takes 135.9-20.22*z microseconds per foot.", "quantifier": "every depth, porosity, clay fraction and pressure", "why_tests_cant": "The inputs range over continua (real moduli, fractions, densities), so a finite set of sampled values cannot rule out a violating combination.", "anchors": ["rockphypy/Emp.py: Empirical.Sclater, Empirical.Hillis, Empirical.Scherbaum, Empirical.Storvoll, Empirical.hjelstuen, Empirical.ehrenberg, Empirical.ramm_porosity, Empirical.han, Empirical.empirical_StPeter"]}
{"id": "C71", "title": "Oil density, modulus and the default gas-oil ratio", "statement": "The dead-oil density of BW.rho_K_oil strictly rises with pressure up to 70 MPa and strictly falls with temperature, and its modulus is density times the square of the correlation velocity. BW.rho_K_go keeps the mass of oil plus gas in the swollen volume, falls in density with temperature, and its modulus belongs to the dead-oil velocity at the pseudo-density; without a gas-oil ratio it returns what it returns for the ratio of gas-saturated oil.", "quantifier": "every pressure up to 70 MPa, temperature above -17.78 C and positive reference density", "why_tests_cant": "The inputs range over continua (real moduli, fractions, densities), so a finite set of sampled values cannot rule out a violating combination.", "anchors": ["rockphypy/BW.py: BW.rho_K_oil, BW.rho_K_go"]}
{"id": "C72", "title": "Water density varies in the physical direction", "statement": "The density of BW.rho_K_water strictly falls with temperature and strictly rises with pressure within the range of the correlation.", "quantifier": "every temperature in [0,350] C and pressure in [0,100] MPa", "why_tests_cant": "The inputs range over continua (real moduli, fractions, densities), so a finite set of sampled values cannot rule out a violating combination.", "anchors": ["rockphypy/BW.py: BW.rho_K_water"]}
{"id": "C73", "title": "Density normalisation", "statement": "QI.normalize divides by the maximum: for a positive maximum the largest entries become one, none exceeds one, order is kept and non-negative entries stay non-negative. A zero maximum gives no number, a negative one reverses the order, an empty array raises ValueError.", "quantifier": "every array of finite numbers", "why_tests_cant": "The property quantifies over every list length as well as every real entry; tests only fix one short list.", "anchors": ["rockphypy/QI.py: QI.normalize"]}
{"id": "C74", "title": "Screening curves are split at the cement porosity", "statement": "QI.screening never raises and returns 100 evenly spaced porosities from 1e-7 to the critical porosity; the increasing-cement curves are nan in every row above phib_p, the contact-cement curves in every row below; the lower curve is the velocity Fluid.vels gives for the friable sand.", "quantifier": "every set of inputs", "why_tests_cant": "The inputs range over continua (real moduli, fractions, densities), so a finite set of sampled values cannot rule out a violating combination.", "anchors": ["rockphypy/QI.py: QI.screening"]}
{"id": "C75", "title": "Rock physics template moves the right way with saturation", "statement": "The coordinates computed by QI.plot_rpt are those of the brine saturated rock at water saturation one and of the hydrocarbon saturated rock at zero; replacing hydrocarbon by a stiffer, not lighter brine strictly raises both impedance and Vp/Vs.", "quantifier": "every rock with Kdry<K0, 0<Khc<Kb<K0, Dhc<=Db, 0<phi<1 and every pair of saturations", "why_tests_cant": "The inputs range over continua (real moduli, fractions, densities), so a finite set of sampled values cannot rule out a violating combination.", "anchors": ["rockphypy/QI.py: QI.plot_rpt"]}
{"id": "C76", "title": "Biot dispersion between Gassmann and the high-frequency limit", "statement": "At every positive frequency where the flow correction has a positive real part, Fluid.Biot returns the phase velocities and inverse quality factors of the three plane waves of Biot's equations, and the shear wave loses energy. As the frequency grows the velocities tend to those of Fluid.Biot_HF. As it falls to zero the fast and shear velocities tend to those of Fluid.vels, the slow velocity and the losses of the fast and shear wave to zero, if the fluid is slower than the dry frame; in a soft frame with a light fluid the fast and slow results are exchanged. Frequency zero itself gives no number.", "quantifier": "every Gassmann rock, fluid, permeability, pore size, tortuosity and frequency", "why_tests_cant": "The inputs range over continua (real moduli, fractions, densities), so a finite set of sampled values cannot rule out a violating combination.", "anchors": ["rockphypy/Fluid.py: Fluid.Biot"]}
{"id": "C77", "title": "Patchy saturation between Gassmann-Wood and Gassmann-Hill", "statement": "At every positive frequency and every saturation strictly between 0 and 1, Fluid.White_Dutta_Ode returns a complex bulk modulus with positive real and non-negative imaginary part, and the phase velocity and decay rate belonging to it; energy is lost exactly if the fluids differ in bulk modulus. The modulus tends to Gassmann's modulus for the Wood mixture as the frequency goes to zero and to Hill's average of the two saturated rocks as it grows; in between the compliance exceeds Hill's by the fluid exchange of radially diffusing pressures. Equal fluids give Gassmann and no loss. Frequency 0 and saturations 0 and 1 give no number.", "quantifier": "every rock, pair of fluids, permeability, patch size, saturation and frequency", "why_tests_cant": "The inputs range over continua (real moduli, fractions, densities), so a finite set of sampled values cannot rule out a violating combination.", "anchors": ["rockphypy/Fluid.py: Fluid.White_Dutta_Ode"]}
{"id": "C78", "title": "Approximate reflectivity is the first order of the exact one", "statement": "For two half spaces with a small contrast, the P and converted reflectivity of AVO.Aki_Richards differ from the exact solution of the boundary equations only by terms of higher order in the contrast; the two gradients of AVO.AVO_abe differ from each other only by such terms; and the S-P, SV and SH reflectivities behind AVO.EI_ref are the first order of the exact reflection coefficients of SV and SH waves.", "quantifier": "every medium, every direction of the contrast, every angle below 90 degrees (below the critical angle for incoming SV)", "why_tests_cant": "The inputs range over continua (real moduli, fractions, densities), so a finite set of sampled values cannot rule out a violating combination.", "anchors": ["rockphypy/AVO.py: AVO.Aki_Richards, AVO.AVO_abe, AVO.EI_ref"]}
{"id": "C79", "title": "Inclusion shape factors are Eshelby's strain concentrations", "statement": "For oblate inclusions and spheres EM.PQ returns the strain concentration factors of the inclusion in the matrix: the mean dilatation and the mean deviatoric strain of Eshelby's ellipsoid in a unit remote strain, finite and positive for every inclusion, also for voids and fluids. For prolate inclusions it does not: np.cosh(alpha)**-1 stands where the inverse hyperbolic cosine is meant. The shape number is then right at exactly one elongation; with the inverse function the results would be Eshelby's for every elongation and every inclusion. As the elongation tends to one both factors tend to zero, whatever the matrix and the inclusion (unless they share a modulus), so slightly elongated inclusions always get wrong factors; the error dies out for needles.", "quantifier": "every positive aspect ratio (oblate, sphere and prolate), every matrix with positive moduli, every inclusion with non-negative moduli", "why_tests_cant": "The inputs range over continua (real moduli, fractions, densities), so a finite set of sampled values cannot rule out a violating combination.", "anchors": ["rockphypy/EM.py: EM.PQ"]}
{"id": "C80", "title": "Aligned fluid filled pores follow Eshelby's solution except in C11", "statement": "EM.Eshelby_Cheng returns C33, C13, C44 and C66 of the solid with a dilute set of aligned spheroidal pores filled with the fluid, as given by Eshelby's inclusion problem. Its C11 is not the horizontal stiffness of that rock, the term with lambda is not divided by D: at every aspect ratio, in any solid of positive lambda, it is right for one fluid modulus only, too large for softer fluids and empty pores, too small for stiffer fluids.", "quantifier": "every porosity, every aspect ratio in (0,1), every solid and every fluid modulus other than the solid's", "why_tests_cant": "The inputs range over continua (real moduli, fractions, densities), so a finite set of sampled values cannot rule out a violating combination.", "anchors": ["rockphypy/EM.py: EM.Eshelby_Cheng"]}
{"id": "C81", "title": "Spherical inclusion models use the exact strain concentrations of a sphere", "statement": "EM.Swiss_cheese, EM.SC, EM.SC_dilute, EM.SC_flex and EM.MT_average are, in terms of the mean dilatation P and deviatoric strain Q of a spherical inclusion in the embedding medium (Eshelby): Swiss cheese adds phi*P/K to the compliance of the solid; the self-consistent modulus is the fixed point of that rule with P and Q of the effective medium itself; the dilute rule adds f*(Mi-M)*P to stiffness (strain given) or compliance (stress given); Mori-Tanaka is the strain weighted mean of the two moduli.", "quantifier": "every matrix, every inclusion with non-negative moduli, every fraction", "why_tests_cant": "The inputs range over continua (real moduli, fractions, densities), so a finite set of sampled values cannot rule out a violating combination.", "anchors": ["rockphypy/EM.py: EM.Swiss_cheese, EM.SC, EM.SC_dilute, EM.SC_flex, EM.MT_average"]}
{"id": "C82", "title": "Self-consistent and differential schemes for spheroids", "statement": "The residual handed to fsolve by EM.Berryman_sc is the concentration weighted mean deviation of the phase moduli from the effective ones, so any positive root lies between the smallest and the largest phase modulus; and if all phases have positive moduli there is such a root, for any number of phases and any aspect ratios. The differential equation integrated by EM.Berryman_DEM is that of the differential scheme. From every host with positive moduli, for every inclusion with non-negative ones (voids and fluids included), it has exactly one solution up to any fraction below one, and an exact integrator makes EM.Berryman_DEM report it: the moduli stay positive, approach those of the inclusion monotonically and never pass them, and spheres in a host of equal shear modulus follow Hill's exact solution. The reported fractions are 0, 0.01, ... up to the first one not below phi, so they pass phi unless it is a multiple of 0.01. A number of fractions different from that of the phases is rejected, but a single fraction is silently used for every phase.", "quantifier": "any number of phases, every aspect ratio in (0,1], every non-negative moduli, every fraction up to 0.99, every exact integrator and root finder", "why_tests_cant": "The inputs range over continua (real moduli, fractions, densities), so a finite set of sampled values cannot rule out a violating combination.", "anchors": ["rockphypy/EM.py: EM.Berryman_sc, EM.Berryman_func, EM.Berryman_DEM, EM.DEM"]}
{"id": "C83", "title": "Crack models are the thin limit of spheroidal pores", "statement": "utils.crack_por is the porosity of penny shaped cracks of given density and aspect ratio. EM.Dilute_crack is the limit of randomly oriented empty spheroids as their aspect ratio goes to zero at fixed crack density, and EM.hudson to first order that of aligned spheroids whose filling keeps its stiffness against opening and sliding. One constant fails: C44 of EM.hudson is the limit only if the filling has no shear modulus, because lambda+G stands where lambda+2G belongs.", "quantifier": "every solid, every crack density, every filling with non-negative moduli, every remote strain", "why_tests_cant": "The inputs range over continua (real moduli, fractions, densities), so a finite set of sampled values cannot rule out a violating combination.", "anchors": ["rockphypy/utils.py: utils.crack_por", "rockphypy/EM.py: EM.Dilute_crack, EM.hudson"]}
{"id": "C84", "title": "Self-consistent crack models of O'Connell and Budiansky", "statement": "EM.OConnell_Budiansky evaluates the strain of dry cracks in a medium of Poisson's ratio nu0(1-16*crd/9). Whatever root is found by EM.OConnell_Budiansky_fl, its moduli have the Poisson ratio that the equations were solved for, but they are the self-consistent moduli of fluid filled cracks only if the cracks are dry (or absent): the second equation has the Poisson ratio of the solid in place of the effective one. Such a root exists for every solid with a Poisson ratio of at least -1/3, every crack density below 45/32 and every filling, unless the first equation turns into 0/0 at it.", "quantifier": "every solid, fluid, aspect ratio, crack density and every root of the two equations with -1<nu<1/2 and positive moduli", "why_tests_cant": "The inputs range over continua (real moduli, fractions, densities), so a finite set of sampled values cannot rule out a violating combination.", "anchors": ["rockphypy/EM.py: EM.OConnell_Budiansky, EM.OConnell_Budiansky_fl, EM.OC_R_funcs"]}
{"id": "C85", "title": "Backus average is the exact response of the stack", "statement": "Load any stack of welded isotropic layers: the average stress is the matrix of the five constants returned by Anisotropy.Backus times the average strain, in every state of equilibrium, and no other matrix has this property.", "quantifier": "any number of layers, every positive thickness and stable moduli, every load", "why_tests_cant": "The property quantifies over every list length as well as every real entry; tests only fix one short list.", "anchors": ["rockphypy/Anisotropy.py: Anisotropy.Backus"]}
{"id": "C86", "title": "Grain pack moduli follow from the contact laws", "statement": "GM.hertzmindlin, GM.Walton and GM.Digby are the bulk and shear modulus of a random pack of spheres, as obtained by averaging contact forces over all directions, when each contact obeys Hertz's law (Digby: with a bonded disc) under the given confining stress, has the tangent normal stiffness of that law and Mindlin's tangential stiffness (a fraction f of the contacts; for Digby that of the bond). The grain size has no influence.", "quantifier": "every grain, porosity, coordination number, positive confining stress, slip fraction, bond radius, grain radius, strain; every exact root finder", "why_tests_cant": "The inputs range over continua (real moduli, fractions, densities), so a finite set of sampled values cannot rule out a violating combination.", "anchors": ["rockphypy/GM.py: GM.hertzmindlin, GM.Walton, GM.Digby"]}
{"id": "C87", "title": "Contact cement moduli follow from the cemented contact", "statement": "GM.contactcement returns the moduli of a pack whose contacts have Dvorkin and Nur's stiffnesses, the radius of the cement being that at which the cement fills exactly the pore space lost, either as lenses at the contacts or as a uniform coating.", "quantifier": "every grain and cement, every porosity up to the critical one, every coordination number, both schemes", "why_tests_cant": "The inputs range over continua (real moduli, fractions, densities), so a finite set of sampled values cannot rule out a violating combination.", "anchors": ["rockphypy/GM.py: GM.contactcement"]}
{"id": "C88", "title": "Fluid substitution is undrained poroelasticity", "statement": "Fluid.Gassmann and the three Brown-Korringa functions return the undrained compliance of the rock: for any linear porous body of one mineral that obeys reciprocity and shrinks uniformly when confining and pore pressure are equal, loading it with no fluid leaving produces exactly the strain given by the returned compliance (isotropic moduli for Gassmann).", "quantifier": "every symmetric dry compliance, every mineral, fluid and porosity, every load, every exact matrix inverse", "why_tests_cant": "The inputs range over continua (real moduli, fractions, densities), so a finite set of sampled values cannot rule out a violating combination.", "anchors": ["rockphypy/Fluid.py: Fluid.Gassmann, Fluid.Brown_Korringa_dry2sat, Fluid.Brown_Korringa_sat2dry, Fluid.Brown_Korringa_sub"]}
{"id": "C89", "title": "What Thomsen's parameters say about the exact velocities", "statement": "For every weakly anisotropic medium the three velocities of Anisotropy.Thomsen differ from the exact phase velocities (eigenvalues of the Christoffel matrix) only by terms of higher order in the anisotropy, at every angle. For anisotropy of any strength they agree near the vertical up to terms smaller than the squared sine of the angle, and epsilon and gamma give the exact horizontal velocities. The parameters of Anisotropy.Thomsen_Tsvankin are Thomsen's parameters of the VTI media that carry waves in the three symmetry planes.", "quantifier": "every isotropic background and every VTI perturbation, every stable VTI medium with C44<C33, every orthorhombic medium, every angle", "why_tests_cant": "The inputs range over continua (real moduli, fractions, densities), so a finite set of sampled values cannot rule out a violating combination.", "anchors": ["rockphypy/Anisotropy.py: Anisotropy.Thomsen, Anisotropy.Thomsen_Tsvankin, Anisotropy.vel_azi_VTI"]}
{"id": "C90", "title": "Constant cement template velocities", "statement": "QI.cst_vels returns, up to the cemented porosity, the P and S velocities of the constant cement rock saturated by Gassmann's relation with a solid density that conserves the mass of shale, grains and cement, and nothing beyond it. QI.cal_v_const returns the same kind of velocities for the Hill average of shale and quartz and Murphy's coordination number, but with a solid density that takes vsh as a fraction of the solid and leaves the cement out. Both describe the same template and agree exactly when phi_b*vsh*(Dsh-Dqz)+(phi_c-phi_b)*(Dc-Dqz)=0.", "quantifier": "every grain, cement, shale and fluid with a cemented end member softer than the mineral, every porosity", "why_tests_cant": "The inputs range over continua (real moduli, fractions, densities), so a finite set of sampled values cannot rule out a violating combination.", "anchors": ["rockphypy/QI.py: QI.cst_vels, QI.cal_v_const", "rockphypy/GM.py: GM.constantcement"]}
{"id": "C91", "title": "Voigt and Reuss averages bound every composite", "statement": "Whatever the arrangement of the phases, the effective bulk and shear moduli of a composite of isotropic phases lie between the Reuss and the Voigt average that EM.VRH returns for the volume fractions and moduli of the phases; the Hill average lies between them too. Both bounds are reached, by uniform stress and by uniform strain.", "quantifier": "every number of phases, every measurable arrangement of them, every positive moduli, every strain field of finite energy satisfying Hill's condition", "why_tests_cant": "The inputs range over continua (real moduli, fractions, densities), so a finite set of sampled values cannot rule out a violating combination.", "anchors": ["rockphypy/EM.py: EM.VRH"]}
{"id": "C92", "title": "Hashin-Shtrikman values bound every two-phase composite", "statement": "Whatever the geometry of a periodic composite of two isotropic constituents, one stiffer than the other in both moduli, the pair EM.HS returns as lower bound is at most the bulk and shear modulus of the composite and the pair it returns as upper bound is at least these moduli. For an anisotropic composite the same holds for the rotational means of its stiffness and compliance. For the bulk modulus no order of the constituents is needed, up to the names of the two bounds. With one shear modulus the composite is isotropic and its bulk modulus is the returned value. Every composite has moduli to which this applies.", "quantifier": "every measurable arrangement of two constituents in a unit cell, every positive moduli", "why_tests_cant": "The inputs range over continua (real moduli, fractions, densities), so a finite set of sampled values cannot rule out a violating combination.", "anchors": ["rockphypy/EM.py: EM.HS"]}
{"id": "C93", "title": "Hashin-Shtrikman bulk values are attained by coated spheres", "statement": "The upper bulk modulus of EM.HS is the exact elastic response, under radial load, of a sphere of phase 2 with a concentric coat of phase 1 in the given volume fractions; the lower one that of a sphere of phase 1 coated with phase 2, which is also EM.MT_average with phase 2 as background. Every equilibrium of such a sphere gives this value, and one with a moving surface exists. The bulk bounds can therefore not be improved.", "quantifier": "every pair of radii, every pair of solids (the core may be a fluid), and every radial displacement in equilibrium", "why_tests_cant": "The inputs range over continua (real moduli, fractions, densities), so a finite set of sampled values cannot rule out a violating combination.", "anchors": ["rockphypy/EM.py: EM.HS, EM.MT_average"]}
{"id": "C94", "title": "Permeability formulas follow from viscous flow", "statement": "Permeability.Kozeny_Carman is the Darcy permeability of a rock whose pores are round tubes in Poiseuille flow with the porosity and surface of a pack of spheres of diameter d, exactly when the squared tortuosity is 2.5; Permeability.Panda_Lake is the same for any distribution of grain sizes with the given mean, coefficient of variation and skewness and squared tortuosity tau; Permeability.Bernabe is the sum of the permeabilities of slits and tubes. Permeability.Fredrich should be the permeability of tubes (b=2) or slits (b=3) but is so only for d=1.", "quantifier": "every steady flow, pressure gradient, viscosity, porosity and distribution of grain sizes", "why_tests_cant": "The inputs range over continua (real moduli, fractions, densities), so a finite set of sampled values cannot rule out a violating combination.", "anchors": ["rockphypy/Perm.py: Permeability.Kozeny_Carman, Permeability.Panda_Lake, Permeability.Bernabe, Permeability.Fredrich"]}
{"id": "C95", "title": "Azimuthal reflectivities are the first order of the exact ones", "statement": "Let two half-spaces and their density depart smoothly from one isotropic medium. For HTI half-spaces every entry of AVO.AVO_HTI, at any azimuth and any angle below 90 degrees, differs from the exact P-wave displacement reflection coefficient (plane waves, welded contact, any shear waves) by an error of higher order than the departure. The same holds for both results of AVO.AVO_ortho in the two vertical symmetry planes of orthorhombic half-spaces, given their vertical velocities and Tsvankin's parameters. Close enough to the isotropic medium there is exactly one exact reflection coefficient at each azimuth and angle.", "quantifier": "every smooth family of media, every angle and azimuth, every family of exact reflection coefficients", "why_tests_cant": "The inputs range over continua (real moduli, fractions, densities), so a finite set of sampled values cannot rule out a violating combination.", "anchors": ["rockphypy/AVO.py: AVO.AVO_HTI, AVO.AVO_ortho"]}
{"id": "C96", "title": "Accuracy in computer arithmetic", "statement": "In any arithmetic whose operations have a relative error of at most u, the results of the formulas built from sums, products, quotients and roots of positive quantities lie within a stated number of relative errors u of the exact result, whatever the inputs: velocities from moduli, the Voigt, Reuss and Hill averages and the Backus constants (a number of errors in proportion to the number of constituents), the lower Hashin-Shtrikman values, spherical pores, the self-consistent iteration (in proportion to the number of iterations, without amplification), and the Kozeny-Carman family. As computed, the Reuss average exceeds the Voigt average by no more than rounding errors, and reordering the constituents changes the averages by no more than rounding errors. Moduli recovered from velocities differ from the original ones by at most 18.18*u*(K+8G/3).", "quantifier": "every rounding arithmetic without overflow, every positive input, every number of constituents, every number of iterations", "why_tests_cant": "The inputs range over continua (real moduli, fractions, densities), so a finite set of sampled values cannot rule out a violating combination.", "anchors": ["rockphypy/utils.py: utils.V, utils.M_from_V", "rockphypy/EM.py: EM.VRH, EM.HS, EM.Swiss_cheese, EM.SC", "rockphypy/Anisotropy.py: Anisotropy.Backus", "rockphypy/Perm.py: Permeability.Kozeny_Carman, Permeability.Panda_Lake_cem, Permeability.Fredrich", "rockphypy/Fluid.py: Fluid.Geertsma_Smit_LF, Fluid.vels"]}
{"id": "C97", "title": "Stress-induced anisotropy of a sphere pack follows from its contacts", "statement": "Take a random pack of spheres whose contacts obey the laws of Hertz and Mindlin and never slip, strained hydrostatically by epsilon and axially by epsilon_axial. Its stiffness and its stress on each of the three strain paths are given by integrals over contact directions. GM.johnson returns both stresses of that pack exactly when the two strains are equal, if they are applied together or the axial one first; with the hydrostatic strain first the vertical stress is right for equal strains and the horizontal one, in grains of non-negative Poisson ratio, never is. For equal strains C33, C13, C44 and C66 are the stiffnesses of the pack. The expression meant for C11 exceeds the stiffness of the pack by at most a stated second-order amount in epsilon_axial/epsilon.", "quantifier": "every grain, coordination number, porosity and pair of compressive strains", "why_tests_cant": "The inputs range over continua (real moduli, fractions, densities), so a finite set of sampled values cannot rule out a violating combination.", "anchors": ["rockphypy/GM.py: GM.johnson"]}
{"id": "C98", "title": "The flow correction of Biot's theory is that of oscillating flow in a tube", "statement": "Let a viscous fluid oscillate in a round tube under any force. The wall friction is a fixed complex multiple F of that of a steady flow with the same mean velocity, and F depends on frequency, radius, density and viscosity through one number zeta. With scipy's Bessel functions the flow correction inside Fluid.Biot is this F for 0.1 <= zeta <= 1000, within zeta^2/24 of it below and within a relative error 1.5/zeta above. It is a number with positive real part at every positive frequency, so the velocities and attenuations Fluid.Biot returns are those of Biot's waves at every frequency and the shear wave always loses energy.", "quantifier": "every tube, fluid, frequency and driving force; every rock", "why_tests_cant": "The inputs range over continua (real moduli, fractions, densities), so a finite set of sampled values cannot rule out a violating combination.", "anchors": ["rockphypy/Fluid.py: Fluid.Biot"]}
{"id": "C99", "title": "Integer arrays", "statement": "Arrays of integers in place of floats (any mixture) give the same numbers in the formulas of utils, EM, GM, BW, Fluid, AVO, Anisotropy, Empirical and Permeability (except the solvers, the matrix inversions and the complex-valued dispersion models, which are not compared), with four exceptions: EM.HS raises ValueError when both bulk moduli, or both shear moduli, are integers; Fluid.Biot_HF and Fluid.Geertsma_Smit_HF raise it for an integer tortuosity; AVO.EI_ref without normalisation raises it for an integer density log; a negative integer Brie exponent raises it for an integer saturation. Integer aspect ratios in EM.PQ_vectorize, EM.Berryman_func and EM.Berryman_sc silently turn every sphere (aspect ratio 1) into a disk of aspect ratio 0: the factors are those of Walpole's disks, wrong unless a modulus of the inclusion equals that of the matrix and not a number for an empty pore, and the caller's array holds 0 afterwards.", "quantifier": "every mixture of integer and float inputs, every length of the arrays", "why_tests_cant": "The inputs range over continua (real moduli, fractions, densities), so a finite set of sampled values cannot rule out a violating combination.", "anchors": ["rockphypy/EM.py: EM.HS, EM.PQ_vectorize, EM.Berryman_func, EM.Berryman_sc", "rockphypy/Fluid.py: Fluid.Biot_HF, Fluid.Geertsma_Smit_HF, Fluid.Brie", "rockphypy/AVO.py: AVO.EI_ref", "rockphypy/utils.py, GM.py, BW.py, Anisotropy.py, Perm.py, Emp.py"]}
{"id": "C100", "title": "Squirt flow follows from the compliance of cracks", "statement": "Take a rock with any set of thin cracks that open under tension and slide under shear, and let fluid be trapped in each crack. If the rock is isotropic dry, with closed cracks and wet, then the shear modulus Fluid.Mavko_Jizba returns is that of cracks which slide but cannot open, 1/Gs=1/Gh+2/5*(sum of sliding compliances); the true wet compliances exceed those it uses by 1/Kw-1/Kh, between 0 and crack porosity over fluid modulus, and 4/15 of that in shear; both errors vanish for cracks without volume. For a vertical symmetry axis, cracks without volume and one ratio, not one, of sliding to opening compliance, the published formula of Mukerji and Mavko gives the wet compliances of the rock, but Fluid.Squirt_anisotropic never returns them: not for any set of cracks, with the shear compliance in either convention. For horizontal cracks four of its five results are right and the shear compliance is not.", "quantifier": "every set of cracks of any number, direction, compliance and volume; every fluid", "why_tests_cant": "The inputs range over continua (real moduli, fractions, densities), so a finite set of sampled values cannot rule out a violating combination.", "anchors": ["rockphypy/Fluid.py: Fluid.Mavko_Jizba, Fluid.Squirt_anisotropic"]}
{"id": "C101", "title": "What the diagnostic plots show", "statement": "Each plotting call of QI opens one new figure, returns it, and neither reads nor changes the figures already open, so in a session of any calls, failed ones included, every figure looks as if its call had been the only one. screening_plot shows the three bounds and every sample at (porosity, Vp), coloured by 1-Vsh on the scale 0 to 1. kde_plot shows the bounds and the density estimate of the chosen velocity, divided by its maximum and cut below 0.0001, with porosity horizontal; the colour map passed by the caller has no effect and an unknown velocity name silently shows no density. cst_plot never raises and shows the contact cement and friable sand curves and one constant cement line per requested porosity, each without values beyond its own porosity. cement_diag_plot adds the samples coloured by the cement estimate on the scale 0 to 0.1, and accepts whatever estimate_cem returned for the same logs. plot_rpt shows one line per porosity and a last line through the last saturation, the brine line exactly as intended when that saturation is 1. Logs of different lengths raise ValueError, a missing (or misspelt) Vsh TypeError, an empty saturation array IndexError; a half drawn figure stays open.", "quantifier": "every log, every list of curves, every density estimate, every sequence of plotting calls", "why_tests_cant": "The property quantifies over every list length as well as every real entry; tests only fix one short list.", "anchors": ["rockphypy/QI.py: QI.__init__, QI.screening_plot, QI.kde_plot, QI.cst_plot, QI.cement_diag_plot, QI.plot_rpt"]}
{"id": "C102", "title": "Arrays and broadcasting", "statement": "On numpy arrays of any shapes the formulas of utils, EM, GM, BW, Fluid, AVO, Anisotropy, Empirical and Permeability that return scalars act entry by entry: each result has the common shape (numpy's rule) of exactly the arguments it depends on, and each entry is the value of the formula at the entries that meet there; when the shapes do not fit the call raises ValueError. So logs of one length and numbers give the log of the values, and logs of different lengths raise ValueError unless one has a single sample. The self-consistent iterations act entry by entry for every number of iterations. AVO.Aki_Richards, AVO.EI_ref and EM.Swiss_cheese instead combine every sample with every angle (porosity) when their first layer argument is a log: n samples and m angles give n x m tables, and Aki_Richards gives intercept and gradient as n x 1 columns. Hence three logs of n samples in EM.Swiss_cheese give an n x n table with the log on its diagonal. In these three functions a log as first argument and a number as another layer property raise TypeError; in Aki_Richards a number as first argument and logs as the others pairs angle k with interface k, or raises ValueError. Two-dimensional sections (n x m) in Aki_Richards give arrays of shape n x 1 x m: m angles are paired with the m columns, another number of angles (other than one) raises ValueError. AVO.EI_ref on numbers with normalisation returns Vp*rho at every angle. A gas-oil ratio or Brie exponent given as a log raises ValueError.", "quantifier": "every number of dimensions, every shape and every entry of the arrays, every number of iterations", "why_tests_cant": "The property quantifies over every list length as well as every real entry; tests only fix one short list.", "anchors": ["rockphypy/AVO.py: AVO.Aki_Richards, AVO.EI_ref, AVO.zoeppritz, AVO.AVO_abe, AVO.AVO_ortho", "rockphypy/EM.py: EM.Swiss_cheese, EM.SC, EM.SC_flex, EM.HS, EM.cripor", "rockphypy/BW.py: BW.rho_K_go, BW.co2_brine, BW.rho_K_brine", "rockphypy/utils.py, GM.py, Fluid.py, Anisotropy.py, Perm.py, Emp.py"]}
{"id": "C103", "title": "Shared, overwritten and uninitialised arrays", "statement": "A call of a function that assigns to parts of arrays leaves the caller's arrays as they were and returns new, mutually distinct arrays, whose entries do not depend on what np.empty found in memory (Fluid.Biot's flow correction, Empirical.ramm_porosity with segments, GM.diluting, QI.screening, QI.cst_vels, QI.estimate_cem, the density of QI.kde_plot, the tables of QI.plot_rpt), with these exceptions. EM.PQ_vectorize replaces every aspect ratio 1 in the caller's array by 0.999, also when it then raises; moduli kept in the same array are changed before they are used, and a second call with the same arrays gives the same factors and changes nothing more. EM.Berryman_sc does this to an array but not to a list, and only if the solver evaluates the residuals; its result is that of the solver on the residuals as a function of the values. Fluid.Gassmann returns the caller's dry shear moduli themselves: writing into its result changes them. EM.SC with no iteration returns its arguments. A QI object keeps the caller's arrays, so later changes of a log are seen by its methods. QI.estimate_cem returns an entry for every porosity, undefined where the velocity log is shorter, and raises IndexError when it is longer or when there are no seeds.", "quantifier": "every content of memory, every sharing of arrays among the arguments, every length, every solver, every number of iterations", "why_tests_cant": "The property quantifies over every list length as well as every real entry; tests only fix one short list.", "anchors": ["rockphypy/EM.py: EM.PQ_vectorize, EM.Berryman_func, EM.Berryman_sc, EM.SC", "rockphypy/Fluid.py: Fluid.Gassmann, Fluid.Biot", "rockphypy/Emp.py: Empirical.ramm_porosity", "rockphypy/GM.py: GM.diluting", "rockphypy/QI.py: QI.__init__, QI.screening, QI.cst_vels, QI.estimate_cem, QI.kde_plot, QI.plot_rpt"]}
{"id": "C104", "title": "Patchy saturation and pressure diffusion in a spherical cell", "statement": "Take a sphere of rock filled with one fluid inside a shell filled with another, no fluid leaving the cell, and let it obey Biot's equations without inertia (elastic frame, storage, Darcy's law, equilibrium) with displacements, pressure and stress continuous. Every such motion has the same ratio of surface stress to change of volume, so the cell has one complex bulk modulus at each frequency. Fluid.White_Dutta_Ode returns exactly this modulus when the frame has no rigidity. For a rigid frame it has the right limits at low and at high frequency (Gassmann's modulus with Wood's fluid mixture, Hill's mixture of Gassmann's moduli), but its distance from the high-frequency limit is wrong by a stated factor, because it lets pressure diffuse as if the frame could give way freely sideways; when the two fluids are not too different the factor is below one and at all high enough frequencies the returned modulus is not that of the cell.", "quantifier": "every rock, pair of fluids, saturation, patch size and frequency; every motion of the cell", "why_tests_cant": "The inputs range over continua (real moduli, fractions, densities), so a finite set of sampled values cannot rule out a violating combination.", "anchors": ["rockphypy/Fluid.py: Fluid.White_Dutta_Ode, Fluid.Gassmann"]}
{"id": "C105", "title": "The source text computes the verified formulas", "statement": "Take the text of a function of the package, statement by statement, and run it under Python's rules: arguments bound to parameters, expressions evaluated from left to right, assignments, tuple unpacking, branches, calls of other functions of the package, numpy's functions of one number, dot products, sums, masks, slices and arrays, and the commands of pyplot. On every input the call ends with exactly the value, or exactly the exception, that the model of the function gives, the model about which the other properties are proved, and a plot leaves exactly the figures that its model leaves; and this holds for every kind of number the model is read at (exact, with infinities and nan, rounded, with dtypes, arrays).", "quantifier": "every input of each of the functions listed, in every number system of the model", "why_tests_cant": "The inputs range over continua (real moduli, fractions, densities), so a finite set of sampled values cannot rule out a violating combination.", "anchors": ["rockphypy/utils.py", "rockphypy/EM.py", "rockphypy/AVO.py", "rockphypy/Anisotropy.py", "rockphypy/BW.py", "rockphypy/Fluid.py", "rockphypy/GM.py", "rockphypy/Emp.py", "rockphypy/Perm.py", "rockphypy/QI.py: QI.matrix_modulus, QI.den_matrix, QI.screening, QI.normalize, QI.cst_vels, QI.cal_v_const, QI.kde_plot, QI.screening_plot, QI.cst_plot, QI.cement_diag_plot, QI.plot_rpt, QI.estimate_cem, QI.__init__"]}
{"id": "C106", "title": "Calling the functions: positions, keywords, defaults", "statement": "Every function of the package follows Python's rules for arguments. A call with more arguments than parameters, with an unknown keyword, with a parameter given twice or with a parameter that has no default value left out raises TypeError before anything else happens. Every other call equals the call by position in which the first parameters have the positional arguments and every other parameter has its keyword argument or else its default value; so the order of the keywords does not matter. The parameters that may be left out are exactly: den=False (EM.cripor_reuss), bound='upper' (EM.HS), mat=False (EM.Eshelby_Cheng), order=1 and axis=3 (EM.hudson), norm=True (AVO.EI_ref), axis=3 (Anisotropy.Bond_trans), brie_component=None and bw=False (BW.co2_brine), path='together' (GM.johnson), HB=True (Empirical.ramm_porosity), sample=1 (Empirical.empirical_StPeter), cmap=cmap_sand (QI.screening_plot), cmap=cmap_kde, vels='Vp' and n=64 (QI.kde_plot). A rejected call of a plot opens no figure.", "quantifier": "every function and method of the package except QI.__init__ (which takes any keyword), every list of positional arguments and every list of keyword arguments of any values", "why_tests_cant": "The property quantifies over every list length as well as every real entry; tests only fix one short list.", "anchors": ["rockphypy/utils.py", "rockphypy/EM.py", "rockphypy/AVO.py", "rockphypy/Anisotropy.py", "rockphypy/BW.py", "rockphypy/Fluid.py", "rockphypy/GM.py", "rockphypy/Emp.py", "rockphypy/Perm.py", "rockphypy/QI.py"]}
{"id": "C107", "title": "Self-consistent moduli of two phases", "statement": "Two phases with positive moduli have, at every volume fraction, exactly one pair of positive self-consistent moduli (the pair for which spherical grains of both phases in a medium of these moduli cause no disturbance on average). It is the same whichever phase is called the inclusion, and with one phase stiffer than the other in both moduli it lies between the two Hashin-Shtrikman averages EM.HS returns. EM.SC_flex stands still exactly at this pair, and if its results converge at all, to moduli other than those of the inclusion, they converge to it. They do converge when the inclusion is the stiffer phase (and its shear modulus exceeds the bulk modulus of the matrix), with an error that shrinks by a factor 1-min(Km/Ki,Gm/Gi) or less in each iteration. For empty inclusions the pair is the one that EM.SC finds, and is unique, but EM.SC_flex need not find it: it does when the porosity is small (up to a fifth if the bulk modulus does not exceed the shear modulus, up to a tenth if it is less than four times the shear modulus, or whenever a stated factor is below one), its errors shrinking by this factor in each iteration, and then has the limits of EM.SC; above a fraction 17/35 the first iteration already returns a negative shear modulus; in a mineral of Poisson ratio 1/5 with a porosity between 5/16 and 1/2 it converges to the solution only if some iteration hits it exactly, and at fraction 1/3 in such a mineral the results do not stay within 20 per cent of the solution however many iterations are made.", "quantifier": "every volume fraction, all positive moduli, every number of iterations", "why_tests_cant": "The inputs range over continua (real moduli, fractions, densities), so a finite set of sampled values cannot rule out a violating combination.", "anchors": ["rockphypy/EM.py: EM.SC_flex, EM.SC, EM.HS"]}
{"id": "C108", "title": "Results do not depend on the system of units", "statement": "The formulas of physics in the package do not know in which units their arguments are measured. Change the units of mass, length and time by any positive factors, convert every argument by the power product of its dimension (stress, density, velocity, impedance, compliance, length, permeability, viscosity, frequency, or none) and call the function: the result is the old result converted in the same way, a number stays a number, an undefined result stays undefined and an exception stays the same exception. This holds for the elastic formulas of utils, the bounds, cracks and inclusion models, the granular media and fluid substitution models, Biot's and White's dispersion, the anisotropic formulas, AVO, Backus averaging, the Kozeny-Carman family of permeabilities, and QI's screening, templates and cement estimate (which is a pure number, the same in every unit). A confining stress in MPa beside moduli in GPa counts as a stress: the two units change by the same factor. There are three exceptions. Permeability.Fredrich returns 1/length^2 instead of length^2, so it is right only when the unit of length is kept. GM.johnson on the path 'iso-uni' adds terms of different dimension in the horizontal stress, so it is right only when the unit of stress is kept; every other path is right. AVO.EI_ref without normalisation returns a number that has no dimension at all: no power of the units converts it. Fitted regressions, whose coefficients carry units of their own (BW, most of Empirical, Perm_logs, Owolabi, Bloch, Tixier and the like), are not meant here.", "quantifier": "every positive change of the units of mass, length and time; every input, including those for which the result is undefined", "why_tests_cant": "The inputs range over continua (real moduli, fractions, densities), so a finite set of sampled values cannot rule out a violating combination.", "anchors": ["rockphypy/utils.py", "rockphypy/EM.py", "rockphypy/GM.py", "rockphypy/Fluid.py", "rockphypy/Anisotropy.py", "rockphypy/AVO.py", "rockphypy/Perm.py", "rockphypy/QI.py"]}
{"id": "C109", "title": "Results vary continuously with the inputs", "statement": "A small change of the inputs changes the result by little. Let the arguments of a function depend continuously on a parameter from any space; at every parameter at which the result is a number, and for every tolerance, all results that are numbers at nearby parameters are within the tolerance, entry by entry for tuples, lists and matrices, and an exception is raised at every parameter or at none. This holds without a condition for almost every formula of utils, EM, GM, Fluid, Anisotropy, AVO, BW, Empirical, Permeability and QI. It holds under a condition for: Brie and the Brie mode of co2_brine (no zero saturation together with a zero exponent); pcm and vpcm, whose branches meet at the cement threshold; diluting (a fixed positive exponent); PQ and DEM (aspect ratios all below or all above one); matrix_modulus and screening (a shale modulus that is not zero: then leaving out the shale at zero shale content changes nothing); the Brown-Korringa substitutions (where the inverse of the mineral stiffness is continuous); EI_ref (logs without a zero). Without the condition five functions jump: Brie at zero saturation when the exponent goes to zero, diluting in the exponent above the crushing stress, PQ at aspect ratio one, yu_segment_trend by 0.43 m/s at 2630 m and Japsen by 0.2 m/s at 1393 m.", "quantifier": "every topological space of parameters and every family of arguments that varies continuously over it; every input, including those for which the result is undefined", "why_tests_cant": "The inputs range over continua (real moduli, fractions, densities), so a finite set of sampled values cannot rule out a violating combination.", "anchors": ["rockphypy/utils.py", "rockphypy/EM.py", "rockphypy/GM.py", "rockphypy/Fluid.py", "rockphypy/Anisotropy.py", "rockphypy/AVO.py", "rockphypy/BW.py", "rockphypy/Emp.py", "rockphypy/Perm.py", "rockphypy/QI.py"]}
{"id": "C110", "title": "A missing value stays missing", "statement": "Samples of a log that were not measured are nan. If an argument on which a result depends is nan, the result is nan (or the function raises): it is never a plausible number. For every formula of utils, EM, GM, Fluid, Anisotropy, AVO, BW, Empirical, Permeability and QI, and for each of its results, the arguments are sorted into those that carry a missing value over and those on which the result does not depend at all. Some need a condition: each Hashin-Shtrikman bound depends on the moduli of one side only; a spherical inclusion's shear modulus does not enter the bulk factor, any other's does; the saturation and the exponent of Brie are carried over unless the exponent is 0 or the saturation 1 (then a number comes out); a missing shale modulus is ignored at zero shale. In a log one missing sample makes everything missing in VRH, in QI.normalize and, with the default normalisation, in EI_ref (density: all five impedances, P velocity: the P impedances, S velocity: the S impedances; a missing angle or velocity ratio only its own samples). Four functions break the rule: yu_segment_trend and Japsen drop a missing depth, so that the result is shorter than the log and no longer lines up with it; diluting turns a missing stress into the number 0; the contact cement curve of the screening is not cut off if the cement porosity is missing.", "quantifier": "every number type whose nan obeys the rules of IEEE arithmetic (so also with rounding errors and overflow), every value of the other arguments, including infinite and missing ones", "why_tests_cant": "The inputs range over continua (real moduli, fractions, densities), so a finite set of sampled values cannot rule out a violating combination.", "anchors": ["rockphypy/utils.py", "rockphypy/EM.py", "rockphypy/GM.py", "rockphypy/Fluid.py", "rockphypy/Anisotropy.py", "rockphypy/AVO.py", "rockphypy/BW.py", "rockphypy/Emp.py", "rockphypy/Perm.py", "rockphypy/QI.py"]}
{"id": "C111", "title": "Physical inputs give numbers", "statement": "On physically meaningful arguments no formula divides by zero, takes a root or a logarithm of a number outside the domain, or raises: the result is a number, and moduli, velocities and permeabilities are positive where nothing is subtracted at the end. Positive moduli, densities and lengths, and fractions between 0 and 1, suffice for utils (V, poi, lame, M_from_V, crack_por), Swiss_cheese, the fitted regressions and the permeabilities. With the stated further conditions: HS (the first phase stiffer in both moduli; all fractions from 0 to 1), VRH (any number of phases, at least one present), MT_average, Hudson's cracks with a filling that may be a fluid or empty, in first and second order and randomly oriented, Dilute_crack (every crack density), OConnell_Budiansky (crack density up to 9/16), hertzmindlin and Walton (porosity below 1, slip fraction from 0 to 1), softsand, stiffsand and contactcement (porosity below critical), constantcement and MUHS (cement layer no thicker than the grain radius), pcm and vpcm (where the cement stiffens the pack, which it does below some stress for every such system), shaly_sand (clay below the sand porosity), Gassmann, vels and the templates (frame no stiffer than (1-phi) times the mineral), Thomsen (C44 below C33), Aki_Richards (angle below 90 degrees, P wave faster than S wave), water, brine, oil lighter than 1.08 g/cc, gas gravity below 12, Hillis (depth above 6.7 km), esti_VS (P velocity from 1130 m/s). Two physical inputs divide by zero: two phases of equal bulk modulus in HS, and empty pores (fluid modulus 0) in Gassmann; with numpy's infinities the result is then the common modulus and the dry modulus, with plain Python numbers an exception.", "quantifier": "all real arguments in the stated ranges, any number of phases", "why_tests_cant": "The inputs range over continua (real moduli, fractions, densities), so a finite set of sampled values cannot rule out a violating combination.", "anchors": ["rockphypy/utils.py", "rockphypy/EM.py", "rockphypy/GM.py", "rockphypy/Fluid.py", "rockphypy/Anisotropy.py", "rockphypy/AVO.py", "rockphypy/BW.py", "rockphypy/Emp.py", "rockphypy/Perm.py", "rockphypy/QI.py"]}
{"id": "C112", "title": "Opposite and mirrored directions", "statement": "A direction, the opposite direction and their mirror images give the same velocities in Thomsen, vel_azi_HTI and vel_azi_VTI (angle or azimuth x, -x, x+180 and any combination), the same reflectivities in AVO_HTI (angle of incidence and azimuth independently) and AVO_ortho, the same stiffness of a cone of cracks (hudson_cone), and the same impedances of the unconverted waves in EI_ref. Incidence from the other side leaves the P reflection of Aki_Richards and zoeppritz and changes the sign of the converted reflection; the converted impedance of EI_ref becomes its reciprocal, up to the squared reference impedance. Bond_trans is unchanged by a full turn. The exact reflection coefficient is not: because zoeppritz takes the sine of the number of degrees, angles that differ by a full turn give different results.", "quantifier": "every angle and azimuth, every stiffness, velocity and density, including those for which the result is undefined", "why_tests_cant": "The inputs range over continua (real moduli, fractions, densities), so a finite set of sampled values cannot rule out a violating combination.", "anchors": ["rockphypy/Anisotropy.py: Thomsen, vel_azi_HTI, vel_azi_VTI, Bond_trans", "rockphypy/AVO.py: AVO_HTI, AVO_ortho, Aki_Richards, zoeppritz, EI_ref", "rockphypy/EM.py: hudson_cone"]}
{"id": "C113", "title": "The pressure warning and the history of the session", "statement": "BW.v_water, rho_K_water, v_brine and rho_K_brine warn exactly when one of the pressures exceeds 100 MPa (100 itself and a missing value do not), v_water and v_brine also when the shapes of the arrays do not fit, the other two only when they do; rho_K_brine warns twice. The warning changes no value: the results are those of the formulas entry by entry, whatever calls came before. How often a user sees it depends on the history. With Python's own filter one message is shown in a session, however many later calls are out of range; each renewed filter allows one more. With the filter always every warning is shown, with once a single one in the life of the interpreter also when the filter is set again, with ignore none. With the filter error the call raises exactly when a pressure is too high, and leaves the session as it was. Whatever filters are set between the calls, no more messages appear than there were warnings, and a session without a pressure that is too high shows none.", "quantifier": "every history of calls and renewals of the filter, arrays of every length that broadcast or do not, pressures including infinite and missing ones", "why_tests_cant": "A test sees one history. Which messages are shown depends on all earlier calls in the process, of this and of other functions, so a test of the warning passes or fails with the order of the test suite.", "anchors": ["rockphypy/BW.py: v_water, rho_K_water, v_brine, rho_K_brine"]}
{"id": "C114", "title": "Estimates of porosity and velocity and their documented units", "statement": "Empirical.ehrenberg (depth in metres) and ramm_porosity return a porosity between 0 and 1 exactly down to 5208.66 m, 5458.8 m (HB) and 6188.4 m. ramm_porosity_segment returns percentages between 0 and 100 exactly down to 4423.08 m, and so is not a fraction like its sibling above 4346 m. Permeability.Bloch returns a percentage if the rigid grain content is one, exactly where the regression is not negative. GM.ThomasStieber returns fractions for fractions, utils.crack_por exactly when aspect ratio times crack density is at most 3/(4 pi). Sclater returns a depth below the sea floor exactly for porosities up to 0.49; hjelstuen (depth in metres) returns 1870 to 3960 m/s exactly down to the documented 3.8 km, and the docstring's number 3.8 itself is taken for metres. Six docstrings contradict the code: ehrenberg asks for kilometres, but a depth of up to 10 km in that unit gives 0.48 to within a thousandth; Bloch asks for a fraction and promises one, but then well sorted sands (up to 1.38) have a porosity above one and poorly sorted ones (from 1.66) a negative one; empirical_StPeter promises km/s and returns m/s; Hillis asks for kilometres, but any depth up to 10 km in that unit gives about 2244, in m/s; Panda_Lake promises millidarcy like Panda_Lake_cem, but for grains of one size is at least 240 times smaller at every tortuosity from 1; Bernabe promises millidarcy, but returns the permeability of slits and tubes in square micrometres, over 1013 times less.", "quantifier": "every non-negative depth, logs of every length, every sorting, content, pressure, crack density and aspect ratio", "why_tests_cant": "The inputs range over continua (real moduli, fractions, densities), so a finite set of sampled values cannot rule out a violating combination.", "anchors": ["rockphypy/Emp.py: ehrenberg, ramm_porosity, ramm_porosity_segment, empirical_StPeter, Hillis, Sclater, hjelstuen", "rockphypy/Perm.py: Bloch, Panda_Lake, Panda_Lake_cem, Bernabe", "rockphypy/GM.py: ThomasStieber", "rockphypy/utils.py: crack_por"]}
