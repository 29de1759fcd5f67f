import Verif.Proof.Bounded

/-!
# Errors of the series of UTM coordinates

Each step is bounded from the bounds of its operands.
-/

set_option exponentiation.threshold 4096

namespace Dis.Geo

theorem Bd.k0 : Bd Dbl.k0 0.9996 0.9996 1.1e-16 := by
  refine ⟨⟨by unfold F64.Finite; decide +kernel, ?_⟩, by norm_num⟩
  rw [val_units (m := 0x1FFCB923A29C78) 1021 53 (by decide +kernel) rfl]
  norm_num

theorem Bd.a : Bd Dbl.WGS84.a WGS84.a 6378137 0 := ⟨Ap.a, by unfold WGS84.a; norm_num⟩

theorem meridian_near {L : Dbl.CMath} (hL : L.Accurate) {E t : F64} {E' t' : ℝ}
    (hE : Bd E E' 6.7e-3 1.7e-16) (ht : Bd t t' 1.4661 3.95e-16) :
    ∃ z, Dbl.meridian L E t = .ok z ∧ Bd z (WGS84.a * ((1 - E' / 4 - 3 * E' ^ 2 / 64 - 5 * E' ^ 3 / 256) * t'
    - (3 * E' / 8 + 3 * E' ^ 2 / 32 + 45 * E' ^ 3 / 1024) * Real.sin (2 * t')
    + (15 * E' ^ 2 / 256 + 45 * E' ^ 3 / 1024) * Real.sin (4 * t')
    - (35 * E' ^ 3 / 3072) * Real.sin (6 * t'))) 9383140 1.171e-8 := by
  obtain ⟨yh1, oh1, h1⟩ := hE.square (C := 4.489e-5) (g := 2.288e-18) hL.square hL.squareReturns (by norm_num) (by norm_num) (by norm_num)
  obtain ⟨yh2, oh2, h2⟩ := hE.pow (C := 3.00763e-7) (g := 2.297e-20) hL.pow 3 (by norm_num) (by norm_num) (by norm_num) (by norm_num) (by norm_num)
  have n2 : Bd (Dbl.num 2) 2 2 0 := Bd.num 2 (by norm_num) (by norm_num)
  have n4 : Bd (Dbl.num 4) 4 4 0 := Bd.num 4 (by norm_num) (by norm_num)
  have n6 : Bd (Dbl.num 6) 6 6 0 := Bd.num 6 (by norm_num) (by norm_num)
  have h3 : Bd _ _ 2.9322 1.116e-15 := n2.mul ht (by norm_num) (by norm_num) (by norm_num)
  have h4 : Bd _ _ 5.8644 2.232e-15 := n4.mul ht (by norm_num) (by norm_num) (by norm_num)
  have h5 : Bd _ _ 8.7966 3.347e-15 := n6.mul ht (by norm_num) (by norm_num) (by norm_num)
  obtain ⟨oh6, h6⟩ := h3.sin (g := 1.339e-15) hL.trig (by norm_num)
  obtain ⟨oh7, h7⟩ := h4.sin (g := 2.455e-15) hL.trig (by norm_num)
  obtain ⟨oh8, h8⟩ := h5.sin (g := 3.57e-15) hL.trig (by norm_num)
  have n1 : Bd (Dbl.num 1) 1 1 0 := Bd.num 1 (by norm_num) (by norm_num)
  have h9 : Bd _ _ 1.675e-3 4.269e-17 := hE.divn (r := 4) 4 (by norm_num) (by norm_num) (by norm_num) (by norm_num) (by norm_num) (by norm_num)
  have h10 : Bd _ _ 1.00168 1.539e-16 := n1.sub h9 (by norm_num) (by norm_num) (by norm_num)
  have n3 : Bd (Dbl.num 3) 3 3 0 := Bd.num 3 (by norm_num) (by norm_num)
  have h11 : Bd _ _ 1.3467e-4 6.879e-18 := n3.mul h1 (by norm_num) (by norm_num) (by norm_num)
  have h12 : Bd _ _ 2.10422e-6 1.078e-19 := h11.divn (r := 64) 64 (by norm_num) (by norm_num) (by norm_num) (by norm_num) (by norm_num) (by norm_num)
  have h13 : Bd _ _ 1.00169 2.653e-16 := h10.sub h12 (by norm_num) (by norm_num) (by norm_num)
  have n5 : Bd (Dbl.num 5) 5 5 0 := Bd.num 5 (by norm_num) (by norm_num)
  have h14 : Bd _ _ 1.50382e-6 1.151e-19 := n5.mul h2 (by norm_num) (by norm_num) (by norm_num)
  have h15 : Bd _ _ 5.8743e-9 4.503e-22 := h14.divn (r := 256) 256 (by norm_num) (by norm_num) (by norm_num) (by norm_num) (by norm_num) (by norm_num)
  have h16 : Bd _ _ 1.0017 3.766e-16 := h13.sub h15 (by norm_num) (by norm_num) (by norm_num)
  have h17 : Bd _ _ 2.01e-2 5.123e-16 := n3.mul hE (by norm_num) (by norm_num) (by norm_num)
  have h18 : Bd _ _ 2.5125e-3 6.432e-17 := h17.divn (r := 8) 8 (by norm_num) (by norm_num) (by norm_num) (by norm_num) (by norm_num) (by norm_num)
  have h19 : Bd _ _ 1.3467e-4 6.879e-18 := n3.mul h1 (by norm_num) (by norm_num) (by norm_num)
  have h20 : Bd _ _ 4.20844e-6 2.155e-19 := h19.divn (r := 32) 32 (by norm_num) (by norm_num) (by norm_num) (by norm_num) (by norm_num) (by norm_num)
  have h21 : Bd _ _ 2.51671e-3 6.482e-17 := h18.add h20 (by norm_num) (by norm_num) (by norm_num)
  have n45 : Bd (Dbl.num 45) 45 45 0 := Bd.num 45 (by norm_num) (by norm_num)
  have h22 : Bd _ _ 1.35344e-5 1.036e-18 := n45.mul h2 (by norm_num) (by norm_num) (by norm_num)
  have h23 : Bd _ _ 1.32172e-8 1.014e-21 := h22.divn (r := 1024) 1024 (by norm_num) (by norm_num) (by norm_num) (by norm_num) (by norm_num) (by norm_num)
  have h24 : Bd _ _ 2.51673e-3 6.511e-17 := h21.add h23 (by norm_num) (by norm_num) (by norm_num)
  have n15 : Bd (Dbl.num 15) 15 15 0 := Bd.num 15 (by norm_num) (by norm_num)
  have h25 : Bd _ _ 6.7335e-4 3.44e-17 := n15.mul h1 (by norm_num) (by norm_num) (by norm_num)
  have h26 : Bd _ _ 2.63028e-6 1.347e-19 := h25.divn (r := 256) 256 (by norm_num) (by norm_num) (by norm_num) (by norm_num) (by norm_num) (by norm_num)
  have h27 : Bd _ _ 1.35344e-5 1.036e-18 := n45.mul h2 (by norm_num) (by norm_num) (by norm_num)
  have h28 : Bd _ _ 1.32172e-8 1.014e-21 := h27.divn (r := 1024) 1024 (by norm_num) (by norm_num) (by norm_num) (by norm_num) (by norm_num) (by norm_num)
  have h29 : Bd _ _ 2.6435e-6 1.361e-19 := h26.add h28 (by norm_num) (by norm_num) (by norm_num)
  have n35 : Bd (Dbl.num 35) 35 35 0 := Bd.num 35 (by norm_num) (by norm_num)
  have h30 : Bd _ _ 1.05268e-5 8.052e-19 := n35.mul h2 (by norm_num) (by norm_num) (by norm_num)
  have h31 : Bd _ _ 3.4267e-9 2.625e-22 := h30.divn (r := 3072) 3072 (by norm_num) (by norm_num) (by norm_num) (by norm_num) (by norm_num) (by norm_num)
  have h32 : Bd _ _ 1.4686 1.111e-15 := h16.mul ht (by norm_num) (by norm_num) (by norm_num)
  have h33 : Bd _ _ 2.51673e-3 6.876e-17 := h24.mul h6 (by norm_num) (by norm_num) (by norm_num)
  have h34 : Bd _ _ 1.47112 1.344e-15 := h32.sub h33 (by norm_num) (by norm_num) (by norm_num)
  have h35 : Bd _ _ 2.6435e-6 1.429e-19 := h29.mul h7 (by norm_num) (by norm_num) (by norm_num)
  have h36 : Bd _ _ 1.47113 1.508e-15 := h34.add h35 (by norm_num) (by norm_num) (by norm_num)
  have h37 : Bd _ _ 3.4267e-9 2.752e-22 := h31.mul h8 (by norm_num) (by norm_num) (by norm_num)
  have h38 : Bd _ _ 1.47114 1.672e-15 := h36.sub h37 (by norm_num) (by norm_num) (by norm_num)
  have h39 : Bd _ _ 9383140 1.171e-8 := Bd.a.mul h38 (by norm_num) (by norm_num) (by norm_num)
  refine ⟨_, ?_, h39⟩
  simp only [Dbl.meridian, oh1, oh2, oh6, oh7, oh8, bind_ok]
  rfl

theorem easting_near {L : Dbl.CMath} (hL : L.Accurate) {N T C A ep : F64} {N' T' C' A' ep' : ℝ}
    (hN : Bd N N' 6400000 2.364e-9) (hT : Bd T T' 9.17573e1 7.555e-13) (hC : Bd C C' 6.75e-3 1.845e-16)
    (hA : Bd A A' 1.0473e-1 3.542e-15) (hep : Bd ep ep' 6.75e-3 1.739e-16) :
    ∃ z, Dbl.easting L N T C A ep = .ok z ∧ Bd z (0.9996 * N' * (A' + (1 - T' + C') * A' ^ 3 / 6
    + (5 - 18 * T' + T' ^ 2 + 72 * C' - 58 * ep') * A' ^ 5 / 120) + 500000) 1290400 3.735e-8 := by
  obtain ⟨yh1, oh1, h1⟩ := hA.pow (C := 1.14872e-3) (g := 1.169e-16) hL.pow 3 (by norm_num) (by norm_num) (by norm_num) (by norm_num) (by norm_num)
  obtain ⟨yh2, oh2, h2⟩ := hT.square (C := 8.41941e3) (g := 1.406e-10) hL.square hL.squareReturns (by norm_num) (by norm_num) (by norm_num)
  obtain ⟨yh3, oh3, h3⟩ := hA.pow (C := 1.25996e-5) (g := 2.134e-18) hL.pow 5 (by norm_num) (by norm_num) (by norm_num) (by norm_num) (by norm_num)
  have n1 : Bd (Dbl.num 1) 1 1 0 := Bd.num 1 (by norm_num) (by norm_num)
  have h4 : Bd _ _ 9.27573e1 7.658e-13 := n1.sub hT (by norm_num) (by norm_num) (by norm_num)
  have h5 : Bd _ _ 9.27641e1 7.763e-13 := h4.add hC (by norm_num) (by norm_num) (by norm_num)
  have h6 : Bd _ _ 1.0656e-1 1.175e-14 := h5.mul h1 (by norm_num) (by norm_num) (by norm_num)
  have h7 : Bd _ _ 1.776e-2 1.961e-15 := h6.divn (r := 6) 6 (by norm_num) (by norm_num) (by norm_num) (by norm_num) (by norm_num) (by norm_num)
  have n5 : Bd (Dbl.num 5) 5 5 0 := Bd.num 5 (by norm_num) (by norm_num)
  have n18 : Bd (Dbl.num 18) 18 18 0 := Bd.num 18 (by norm_num) (by norm_num)
  have h8 : Bd _ _ 1.65164e3 1.379e-11 := n18.mul hT (by norm_num) (by norm_num) (by norm_num)
  have h9 : Bd _ _ 1.65664e3 1.398e-11 := n5.sub h8 (by norm_num) (by norm_num) (by norm_num)
  have h10 : Bd _ _ 1.00761e4 1.557e-10 := h9.add h2 (by norm_num) (by norm_num) (by norm_num)
  have n72 : Bd (Dbl.num 72) 72 72 0 := Bd.num 72 (by norm_num) (by norm_num)
  have h11 : Bd _ _ 4.86e-1 1.334e-14 := n72.mul hC (by norm_num) (by norm_num) (by norm_num)
  have h12 : Bd _ _ 1.00766e4 1.569e-10 := h10.add h11 (by norm_num) (by norm_num) (by norm_num)
  have n58 : Bd (Dbl.num 58) 58 58 0 := Bd.num 58 (by norm_num) (by norm_num)
  have h13 : Bd _ _ 3.915e-1 1.013e-14 := n58.mul hep (by norm_num) (by norm_num) (by norm_num)
  have h14 : Bd _ _ 10077 1.581e-10 := h12.sub h13 (by norm_num) (by norm_num) (by norm_num)
  have h15 : Bd _ _ 1.26967e-1 2.352e-14 := h14.mul h3 (by norm_num) (by norm_num) (by norm_num)
  have h16 : Bd _ _ 1.05806e-3 1.962e-16 := h15.divn (r := 120) 120 (by norm_num) (by norm_num) (by norm_num) (by norm_num) (by norm_num) (by norm_num)
  have h17 : Bd _ _ 6397440 3.778e-9 := Bd.k0.mul hN (by norm_num) (by norm_num) (by norm_num)
  have h18 : Bd _ _ 1.2249e-1 5.517e-15 := hA.add h7 (by norm_num) (by norm_num) (by norm_num)
  have h19 : Bd _ _ 1.23549e-1 5.727e-15 := h18.add h16 (by norm_num) (by norm_num) (by norm_num)
  have h20 : Bd _ _ 790398 3.72e-8 := h17.mul h19 (by norm_num) (by norm_num) (by norm_num)
  have n500000 : Bd (Dbl.num 500000) 500000 500000 0 := Bd.num 500000 (by norm_num) (by norm_num)
  have h21 : Bd _ _ 1290400 3.735e-8 := h20.add n500000 (by norm_num) (by norm_num) (by norm_num)
  refine ⟨_, ?_, h21⟩
  simp only [Dbl.easting, oh1, oh2, oh3, bind_ok]
  rfl

theorem northing_near {L : Dbl.CMath} (hL : L.Accurate) {M N tl T C A ep : F64} {M' N' tl' T' C' A' ep' : ℝ}
    (hM : Bd M M' 9383140 1.171e-8) (hN : Bd N N' 6400000 2.364e-9) (htl : Bd tl tl' 9.579 3.837e-14)
    (hT : Bd T T' 9.17573e1 7.555e-13) (hC : Bd C C' 6.75e-3 1.845e-16)
    (hA : Bd A A' 1.0473e-1 3.542e-15) (hep : Bd ep ep' 6.75e-3 1.739e-16) :
    ∃ z, Dbl.northing L M N tl T C A ep = .ok z ∧ Bd z (0.9996 * (M' - 0 + N' * tl' * (A' ^ 2 / 2
    + (5 - T' + 9 * C' + 4 * C' ^ 2) * A' ^ 4 / 24
    + (61 - 58 * T' + T' ^ 2 + 600 * C' - 330 * ep') * A' ^ 6 / 720))) 9746760 4.525e-8 := by
  obtain ⟨yh1, oh1, h1⟩ := hA.square (C := 1.09684e-2) (g := 7.444e-16) hL.square hL.squareReturns (by norm_num) (by norm_num) (by norm_num)
  obtain ⟨yh2, oh2, h2⟩ := hC.square (C := 4.55625e-5) (g := 2.501e-18) hL.square hL.squareReturns (by norm_num) (by norm_num) (by norm_num)
  obtain ⟨yh3, oh3, h3⟩ := hA.pow (C := 1.20306e-4) (g := 1.631e-17) hL.pow 4 (by norm_num) (by norm_num) (by norm_num) (by norm_num) (by norm_num)
  obtain ⟨yh4, oh4, h4⟩ := hT.square (C := 8.41941e3) (g := 1.406e-10) hL.square hL.squareReturns (by norm_num) (by norm_num) (by norm_num)
  obtain ⟨yh5, oh5, h5⟩ := hA.pow (C := 1.31956e-6) (g := 2.681e-19) hL.pow 6 (by norm_num) (by norm_num) (by norm_num) (by norm_num) (by norm_num)
  have n5 : Bd (Dbl.num 5) 5 5 0 := Bd.num 5 (by norm_num) (by norm_num)
  have h6 : Bd _ _ 9.67573e1 7.663e-13 := n5.sub hT (by norm_num) (by norm_num) (by norm_num)
  have n9 : Bd (Dbl.num 9) 9 9 0 := Bd.num 9 (by norm_num) (by norm_num)
  have h7 : Bd _ _ 6.075e-2 1.668e-15 := n9.mul hC (by norm_num) (by norm_num) (by norm_num)
  have h8 : Bd _ _ 9.68181e1 7.788e-13 := h6.add h7 (by norm_num) (by norm_num) (by norm_num)
  have n4 : Bd (Dbl.num 4) 4 4 0 := Bd.num 4 (by norm_num) (by norm_num)
  have h9 : Bd _ _ 1.8225e-4 1.003e-17 := n4.mul h2 (by norm_num) (by norm_num) (by norm_num)
  have h10 : Bd _ _ 9.68183e1 7.896e-13 := h8.add h9 (by norm_num) (by norm_num) (by norm_num)
  have h11 : Bd _ _ 1.16479e-2 1.676e-15 := h10.mul h3 (by norm_num) (by norm_num) (by norm_num)
  have h12 : Bd _ _ 4.8533e-4 6.989e-17 := h11.divn (r := 24) 24 (by norm_num) (by norm_num) (by norm_num) (by norm_num) (by norm_num) (by norm_num)
  have n61 : Bd (Dbl.num 61) 61 61 0 := Bd.num 61 (by norm_num) (by norm_num)
  have n58 : Bd (Dbl.num 58) 58 58 0 := Bd.num 58 (by norm_num) (by norm_num)
  have h13 : Bd _ _ 5.32193e3 4.441e-11 := n58.mul hT (by norm_num) (by norm_num) (by norm_num)
  have h14 : Bd _ _ 5.38293e3 4.501e-11 := n61.sub h13 (by norm_num) (by norm_num) (by norm_num)
  have h15 : Bd _ _ 1.38024e4 1.872e-10 := h14.add h4 (by norm_num) (by norm_num) (by norm_num)
  have n600 : Bd (Dbl.num 600) 600 600 0 := Bd.num 600 (by norm_num) (by norm_num)
  have h16 : Bd _ _ 4.05 1.112e-13 := n600.mul hC (by norm_num) (by norm_num) (by norm_num)
  have h17 : Bd _ _ 1.38065e4 1.889e-10 := h15.add h16 (by norm_num) (by norm_num) (by norm_num)
  have n330 : Bd (Dbl.num 330) 330 330 0 := Bd.num 330 (by norm_num) (by norm_num)
  have h18 : Bd _ _ 2.2275 5.764e-14 := n330.mul hep (by norm_num) (by norm_num) (by norm_num)
  have h19 : Bd _ _ 1.38088e4 1.905e-10 := h17.sub h18 (by norm_num) (by norm_num) (by norm_num)
  have h20 : Bd _ _ 1.82216e-2 3.956e-15 := h19.mul h5 (by norm_num) (by norm_num) (by norm_num)
  have h21 : Bd _ _ 2.53078e-5 5.498e-18 := h20.divn (r := 720) 720 (by norm_num) (by norm_num) (by norm_num) (by norm_num) (by norm_num) (by norm_num)
  have n0 : Bd (Dbl.num 0) 0 0 0 := Bd.num 0 (by norm_num) (by norm_num)
  have h22 : Bd _ _ 9383140 1.276e-8 := hM.sub n0 (by norm_num) (by norm_num) (by norm_num)
  have h23 : Bd _ _ 6.13056e7 2.751e-7 := hN.mul htl (by norm_num) (by norm_num) (by norm_num)
  have h24 : Bd _ _ 5.4842e-3 3.729e-16 := h1.divn (r := 2) 2 (by norm_num) (by norm_num) (by norm_num) (by norm_num) (by norm_num) (by norm_num)
  have h25 : Bd _ _ 5.96953e-3 4.435e-16 := h24.add h12 (by norm_num) (by norm_num) (by norm_num)
  have h26 : Bd _ _ 5.99484e-3 4.497e-16 := h25.add h21 (by norm_num) (by norm_num) (by norm_num)
  have h27 : Bd _ _ 367518 2.926e-8 := h23.mul h26 (by norm_num) (by norm_num) (by norm_num)
  have h28 : Bd _ _ 9750660 4.311e-8 := h22.add h27 (by norm_num) (by norm_num) (by norm_num)
  have h29 : Bd _ _ 9746760 4.525e-8 := Bd.k0.mul h28 (by norm_num) (by norm_num) (by norm_num)
  refine ⟨_, ?_, h29⟩
  simp only [Dbl.northing, oh1, oh2, oh3, oh4, oh5, bind_ok]
  rfl

theorem scale_near {L : Dbl.CMath} (hL : L.Accurate) {T C A ep : F64} {T' C' A' ep' : ℝ}
    (hT : Bd T T' 9.17573e1 7.555e-13) (hC : Bd C C' 6.75e-3 1.845e-16)
    (hA : Bd A A' 1.0473e-1 3.542e-15) (hep : Bd ep ep' 6.75e-3 1.739e-16) :
    ∃ z, Dbl.scaleFactor L T C A ep = .ok z ∧ Bd z (0.9996 * (1 + (1 + C') * A' ^ 2 / 2
    + (5 - 4 * T' + 42 * C' + 13 * C' ^ 2 - 28 * ep') * A' ^ 4 / 24
    + (61 - 148 * T' + 16 * T' ^ 2) * A' ^ 6 / 720)) 1.00728 1.266e-15 := by
  obtain ⟨yh1, oh1, h1⟩ := hA.square (C := 1.09684e-2) (g := 7.444e-16) hL.square hL.squareReturns (by norm_num) (by norm_num) (by norm_num)
  obtain ⟨yh2, oh2, h2⟩ := hC.square (C := 4.55625e-5) (g := 2.501e-18) hL.square hL.squareReturns (by norm_num) (by norm_num) (by norm_num)
  obtain ⟨yh3, oh3, h3⟩ := hA.pow (C := 1.20306e-4) (g := 1.631e-17) hL.pow 4 (by norm_num) (by norm_num) (by norm_num) (by norm_num) (by norm_num)
  obtain ⟨yh4, oh4, h4⟩ := hT.square (C := 8.41941e3) (g := 1.406e-10) hL.square hL.squareReturns (by norm_num) (by norm_num) (by norm_num)
  obtain ⟨yh5, oh5, h5⟩ := hA.pow (C := 1.31956e-6) (g := 2.681e-19) hL.pow 6 (by norm_num) (by norm_num) (by norm_num) (by norm_num) (by norm_num)
  have n1 : Bd (Dbl.num 1) 1 1 0 := Bd.num 1 (by norm_num) (by norm_num)
  have h6 : Bd _ _ 1.00675 2.963e-16 := n1.add hC (by norm_num) (by norm_num) (by norm_num)
  have h7 : Bd _ _ 1.10425e-2 7.54e-16 := h6.mul h1 (by norm_num) (by norm_num) (by norm_num)
  have h8 : Bd _ _ 5.52125e-3 3.777e-16 := h7.divn (r := 2) 2 (by norm_num) (by norm_num) (by norm_num) (by norm_num) (by norm_num) (by norm_num)
  have n5 : Bd (Dbl.num 5) 5 5 0 := Bd.num 5 (by norm_num) (by norm_num)
  have n4 : Bd (Dbl.num 4) 4 4 0 := Bd.num 4 (by norm_num) (by norm_num)
  have h9 : Bd _ _ 3.6703e2 3.063e-12 := n4.mul hT (by norm_num) (by norm_num) (by norm_num)
  have h10 : Bd _ _ 3.7203e2 3.105e-12 := n5.sub h9 (by norm_num) (by norm_num) (by norm_num)
  have n42 : Bd (Dbl.num 42) 42 42 0 := Bd.num 42 (by norm_num) (by norm_num)
  have h11 : Bd _ _ 2.835e-1 7.781e-15 := n42.mul hC (by norm_num) (by norm_num) (by norm_num)
  have h12 : Bd _ _ 3.72314e2 3.155e-12 := h10.add h11 (by norm_num) (by norm_num) (by norm_num)
  have n13 : Bd (Dbl.num 13) 13 13 0 := Bd.num 13 (by norm_num) (by norm_num)
  have h13 : Bd _ _ 5.92313e-4 3.258e-17 := n13.mul h2 (by norm_num) (by norm_num) (by norm_num)
  have h14 : Bd _ _ 3.72315e2 3.197e-12 := h12.add h13 (by norm_num) (by norm_num) (by norm_num)
  have n28 : Bd (Dbl.num 28) 28 28 0 := Bd.num 28 (by norm_num) (by norm_num)
  have h15 : Bd _ _ 1.89e-1 4.891e-15 := n28.mul hep (by norm_num) (by norm_num) (by norm_num)
  have h16 : Bd _ _ 3.72504e2 3.244e-12 := h14.sub h15 (by norm_num) (by norm_num) (by norm_num)
  have h17 : Bd _ _ 4.48145e-2 6.471e-15 := h16.mul h3 (by norm_num) (by norm_num) (by norm_num)
  have h18 : Bd _ _ 1.86728e-3 2.699e-16 := h17.divn (r := 24) 24 (by norm_num) (by norm_num) (by norm_num) (by norm_num) (by norm_num) (by norm_num)
  have n61 : Bd (Dbl.num 61) 61 61 0 := Bd.num 61 (by norm_num) (by norm_num)
  have n148 : Bd (Dbl.num 148) 148 148 0 := Bd.num 148 (by norm_num) (by norm_num)
  have h19 : Bd _ _ 1.35801e4 1.134e-10 := n148.mul hT (by norm_num) (by norm_num) (by norm_num)
  have h20 : Bd _ _ 1.36411e4 1.15e-10 := n61.sub h19 (by norm_num) (by norm_num) (by norm_num)
  have n16 : Bd (Dbl.num 16) 16 16 0 := Bd.num 16 (by norm_num) (by norm_num)
  have h21 : Bd _ _ 134711 2.265e-9 := n16.mul h4 (by norm_num) (by norm_num) (by norm_num)
  have h22 : Bd _ _ 148353 2.397e-9 := h20.add h21 (by norm_num) (by norm_num) (by norm_num)
  have h23 : Bd _ _ 1.95761e-1 4.296e-14 := h22.mul h5 (by norm_num) (by norm_num) (by norm_num)
  have h24 : Bd _ _ 2.71891e-4 5.97e-17 := h23.divn (r := 720) 720 (by norm_num) (by norm_num) (by norm_num) (by norm_num) (by norm_num) (by norm_num)
  have h25 : Bd _ _ 1.00553 4.894e-16 := n1.add h8 (by norm_num) (by norm_num) (by norm_num)
  have h26 : Bd _ _ 1.0074 8.712e-16 := h25.add h18 (by norm_num) (by norm_num) (by norm_num)
  have h27 : Bd _ _ 1.00768 1.043e-15 := h26.add h24 (by norm_num) (by norm_num) (by norm_num)
  have h28 : Bd _ _ 1.00728 1.266e-15 := Bd.k0.mul h27 (by norm_num) (by norm_num) (by norm_num)
  refine ⟨_, ?_, h28⟩
  simp only [Dbl.scaleFactor, oh1, oh2, oh3, oh4, oh5, bind_ok]
  rfl

end Dis.Geo
