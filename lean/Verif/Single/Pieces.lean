import Verif.Single.Exp

/-!
# The pieces of the lines on which the approximations are compared

Every statement that a computation gives `true` is checked by the kernel; that it implies the bound for all points of the piece is
`piece_sound`, `nonnegOn_sound`, `nonnegFrom_sound`.
-/

namespace Verif.Single

/-! ## The approximations as quotients of polynomials

Numerators and denominators are multiplied by a power of ten. -/

def N₁ : List ℤ := [0, 5641896]
def D₁ : List ℤ := [5000000, 0, 10000000]
def N₂ : List ℤ := [0, 14104740, 0, 5641896]
def D₂ : List ℤ := [7500000, 0, 30000000, 0, 10000000]
def N₃ : List ℤ := [164955000, 202093300, 119648200, 37789870, 5642236]
def D₃ : List ℤ := [164955000, 388236300, 392712100, 216927400, 66993980, 10000000]
def N₄ : List ℤ := [0, 36183310000, 0, -3321990000, 0, 1540787000, 0, -219031000, 0, 35766800, 0, -1320522, 0, 564190]
def D₄ : List ℤ := [32066600000, 0, -24322800000, 0, 9022230000, 0, -2186180000, 0, 364219000, 0, -61570400, 0, 1841440, 0, -1000000]

/-! ## The lines, multiplied by a number -/

/-- The imaginary axis, downwards. -/
def axis : CPoly := ([], [0, -1])

/-- The line between the regions of the third and the fourth approximation, times 1000. -/
def border : CPoly := ([-176, 195], [0, -1000])

/-- The line beyond, times 4. -/
def ray : CPoly := ([3], [0, -4])

/-- The line between the regions of the second and the third approximation, times 2. -/
def edge : CPoly := ([11, -2], [0, -2])

/-- The line between the regions of the first and the second approximation. -/
def rim : CPoly := ([15, -1], [0, -1])

/-! ## Pieces -/

theorem axis_0 : piece axis 1 N₃ D₃ [] [1] 49 0 100 (-25, 0) (778800783, 0) = true := by decide +kernel

theorem axis_1 : piece axis 1 N₃ D₃ [] [1] 49 100 166 (-177, 0) (170332989, 0) = true := by decide +kernel

theorem axis_2 : piece axis 1 N₃ D₃ [] [1] 49 166 215 (-363, 0) (26516184, 0) = true := by decide +kernel

theorem axis_3 : piece axis 1 N₃ D₃ [] [1] 49 215 255 (-552, 0) (4005848, 0) = true := by decide +kernel

theorem axis_4 : piece axis 1 N₃ D₃ [] [1] 49 255 290 (-743, 0) (593188, 0) = true := by decide +kernel

theorem axis_5 : piece axis 1 N₃ D₃ [] [1] 49 290 321 (-933, 0) (88722, 0) = true := by decide +kernel

theorem axis_6 : piece axis 1 N₃ D₃ [] [1] 49 321 350 (-1126, 0) (12878, 0) = true := by decide +kernel

theorem axis_far : (let g := gap [] 1000000 axis 1 N₃ D₃ [] [1] 44; nonnegFrom g.1 350 100 && nonnegFrom g.2 350 100) = true := by decide +kernel

theorem border_0 : piece border 1000 N₄ D₄ N₃ D₃ 48 90 159 (-155, -17) (209188370, -35908611) = true := by decide +kernel

theorem border_1 : piece border 1000 N₄ D₄ N₃ D₃ 48 159 208 (-333, -67) (28055411, -22227017) = true := by decide +kernel

theorem border_2 : piece border 1000 N₄ D₄ N₃ D₃ 48 208 248 (-513, -122) (2033201, -5556238) = true := by decide +kernel

theorem border_3 : piece border 1000 N₄ D₄ N₃ D₃ 48 248 283 (-693, -181) (-231717, -950154) = true := by decide +kernel

theorem border_4 : piece border 1000 N₄ D₄ N₃ D₃ 48 283 314 (-875, -242) (-118966, -104677) = true := by decide +kernel

theorem border_5 : piece border 1000 N₄ D₄ N₃ D₃ 48 314 343 (-1058, -305) (-25313, -2325) = true := by decide +kernel

theorem border_6 : piece border 1000 N₄ D₄ N₃ D₃ 48 343 369 (-1241, -369) (-3480, 2126) = true := by decide +kernel

theorem border_7 : piece border 1000 N₄ D₄ N₃ D₃ 48 369 393 (-1419, -432) (-263, 635) = true := by decide +kernel

theorem border_far : (let g := gap [] 1000000 border 1000 N₄ D₄ N₃ D₃ 46; nonnegOn g.1 380 476 100 && nonnegOn g.2 380 476 100) = true := by decide +kernel

theorem ray_far : (let g := gap [] 1000000 ray 4 N₄ D₄ N₃ D₃ 10; nonnegFrom g.1 470 100 && nonnegFrom g.2 470 100) = true := by decide +kernel

theorem edge_0 : (let g := gap [] 1000000 edge 2 N₂ D₂ (psmul (-1) N₃) D₃ 10; nonnegOn g.1 0 28 10 && nonnegOn g.2 0 28 10) = true := by decide +kernel

theorem edge_1 : (let g := gap [] 1000000 edge 2 N₂ D₂ (psmul (-1) N₃) D₃ 10; nonnegOn g.1 28 56 10 && nonnegOn g.2 28 56 10) = true := by decide +kernel

theorem rim_0 : (let g := gap [] 1000000 rim 1 N₁ D₁ (psmul (-1) N₂) D₂ 10; nonnegOn g.1 0 76 10 && nonnegOn g.2 0 76 10) = true := by decide +kernel

theorem rim_1 : (let g := gap [] 1000000 rim 1 N₁ D₁ (psmul (-1) N₂) D₂ 10; nonnegOn g.1 76 152 10 && nonnegOn g.2 76 152 10) = true := by decide +kernel

end Verif.Single
