# Notes shown in MANIFEST.json, status overrides.
NOTES.update({
"C38": "The documented rotation is wrong: C38_isotropic_changes shows exactly when an isotropic matrix survives (a factor 2 is missing in the code); the true parts (identity at 0, quarter turns, symmetry, axis error) are proved for every matrix.",
"C34": "Covers the exact isotropic limit, the VTI reduction of Thomsen_Tsvankin and the error of the weak-anisotropy SH formula.",
})
