import Verif.Common.Chars
import Verif.Symmetry.Model

/-!
# The space groups of `neutronpy/database/symmetry.json`

Generated from the file: one entry per dictionary key, in file order, with the fields that
`SpaceGroup.__init__` uses for the operations and the lookup.
-/

namespace Verif.Symmetry

/-- database/symmetry.json, part 1. -/
def db1 : List Entry := [
  ⟨cs!"P1", 1, cs!"P1", cs!"P1", 1,
    [cs!"x,y,z"]⟩,
  ⟨cs!"P-1", 2, cs!"P-1", cs!"P-1", 2,
    [cs!"x,y,z", cs!"-x,-y,-z"]⟩,
  ⟨cs!"P121", 3, cs!"P121", cs!"P2", 2,
    [cs!"x,y,z", cs!"-x,y,-z"]⟩,
  ⟨cs!"P12_11", 4, cs!"P12_11", cs!"P21", 2,
    [cs!"x,y,z", cs!"-x,y+1/2,-z"]⟩,
  ⟨cs!"C121", 5, cs!"C121", cs!"C2", 4,
    [cs!"x,y,z", cs!"-x,y,-z", cs!"x+1/2,y+1/2,z"]⟩,
  ⟨cs!"P1m1", 6, cs!"P1m1", cs!"Pm", 2,
    [cs!"x,y,z", cs!"x,-y,z"]⟩,
  ⟨cs!"P1c1", 7, cs!"P1c1", cs!"Pc", 2,
    [cs!"x,y,z", cs!"x,-y,z+1/2"]⟩,
  ⟨cs!"C1m1", 8, cs!"C1m1", cs!"Cm", 4,
    [cs!"x,y,z", cs!"x,-y,z", cs!"x+1/2,y+1/2,z"]⟩,
  ⟨cs!"C1c1", 9, cs!"C1c1", cs!"Cc", 4,
    [cs!"x,y,z", cs!"x,-y,z+1/2", cs!"x+1/2,y+1/2,z"]⟩,
  ⟨cs!"P12/m1", 10, cs!"P12/m1", cs!"P2/m", 4,
    [cs!"x,y,z", cs!"x,-y,z", cs!"-x,-y,-z"]⟩,
  ⟨cs!"P12_1/m1", 11, cs!"P12_1/m1", cs!"P21/m", 4,
    [cs!"x,y,z", cs!"-x,y+1/2,-z", cs!"-x,-y,-z"]⟩,
  ⟨cs!"C12/m1", 12, cs!"C12/m1", cs!"C2/m", 8,
    [cs!"x,y,z", cs!"-x,y,-z", cs!"-x,-y,-z", cs!"x+1/2,y+1/2,z"]⟩,
  ⟨cs!"P12/c1", 13, cs!"P12/c1", cs!"P2/c", 4,
    [cs!"x,y,z", cs!"-x,y,-z+1/2", cs!"-x,-y,-z"]⟩,
  ⟨cs!"P12_1/c1", 14, cs!"P12_1/c1", cs!"P21/c", 4,
    [cs!"x,y,z", cs!"-x,y+1/2,-z+1/2", cs!"-x,-y,-z"]⟩,
  ⟨cs!"C12/c1", 15, cs!"C12/c1", cs!"C2/c", 8,
    [cs!"x,y,z", cs!"-x,y,-z+1/2", cs!"-x,-y,-z", cs!"x+1/2,y+1/2,z"]⟩,
  ⟨cs!"P222", 16, cs!"P222", cs!"P222", 4,
    [cs!"x,y,z", cs!"-x,-y,z", cs!"-x,y,-z"]⟩,
  ⟨cs!"P222_1", 17, cs!"P222_1", cs!"P2221", 4,
    [cs!"x,y,z", cs!"-x,-y,z+1/2", cs!"-x,y,-z+1/2"]⟩,
  ⟨cs!"P2_12_12", 18, cs!"P2_12_12", cs!"P21212", 4,
    [cs!"x,y,z", cs!"-x,-y,z", cs!"-x+1/2,y+1/2,-z"]⟩,
  ⟨cs!"P2_12_121", 19, cs!"P2_12_12_1", cs!"P212121", 4,
    [cs!"x,y,z", cs!"-x+1/2,-y,z+1/2", cs!"-x,y+1/2,-z+1/2"]⟩,
  ⟨cs!"C222_1", 20, cs!"C222_1", cs!"C2221", 8,
    [cs!"x,y,z", cs!"-x,-y,z+1/2", cs!"-x,y,-z+1/2", cs!"x+1/2,y+1/2,z"]⟩,
  ⟨cs!"C222", 21, cs!"C222", cs!"C222", 8,
    [cs!"x,y,z", cs!"-x,-y,z", cs!"-x,y,-z", cs!"x+1/2,y+1/2,z"]⟩,
  ⟨cs!"F222", 22, cs!"F222", cs!"F222", 16,
    [cs!"x,y,z", cs!"-x,-y,z", cs!"-x,y,-z", cs!"x,y+1/2,z+1/2", cs!"x+1/2,y,z+1/2"]⟩,
  ⟨cs!"I222", 23, cs!"I222", cs!"I222", 8,
    [cs!"x,y,z", cs!"-x,-y,z", cs!"-x,y,-z", cs!"x+1/2,y+1/2,z+1/2"]⟩,
  ⟨cs!"I2_12_121", 24, cs!"I2_12_12_1", cs!"I212121", 8,
    [cs!"x,y,z", cs!"-x+1/2,-y,z+1/2", cs!"-x,y+1/2,-z+1/2", cs!"x+1/2,y+1/2,z+1/2"]⟩,
  ⟨cs!"Pmm2", 25, cs!"Pmm2", cs!"Pmm2", 4,
    [cs!"x,y,z", cs!"-x,-y,z", cs!"x,-y,z"]⟩,
  ⟨cs!"Pmc2_1", 26, cs!"Pmc2_1", cs!"Pmc21", 4,
    [cs!"x,y,z", cs!"-x,-y,z+1/2", cs!"x,-y,z+1/2"]⟩,
  ⟨cs!"Pcc2", 27, cs!"Pcc2", cs!"Pcc2", 4,
    [cs!"x,y,z", cs!"-x,-y,z", cs!"x,-y,z+1/2"]⟩,
  ⟨cs!"Pma2", 28, cs!"Pma2", cs!"Pma2", 4,
    [cs!"x,y,z", cs!"-x,-y,z", cs!"x+1/2,-y,z"]⟩,
  ⟨cs!"Pca2_1", 29, cs!"Pca2_1", cs!"Pca21", 4,
    [cs!"x,y,z", cs!"-x,-y,z+1/2", cs!"x+1/2,-y,z"]⟩,
  ⟨cs!"Pnc2", 30, cs!"Pnc2", cs!"Pnc2", 4,
    [cs!"x,y,z", cs!"-x,-y,z", cs!"x,-y+1/2,z+1/2"]⟩,
  ⟨cs!"Pmn2_1", 31, cs!"Pmn2_1", cs!"Pmn21", 4,
    [cs!"x,y,z", cs!"-x+1/2,-y,z+1/2", cs!"x+1/2,-y,z+1/2"]⟩,
  ⟨cs!"Pba2", 32, cs!"Pba2", cs!"Pba2", 4,
    [cs!"x,y,z", cs!"-x,-y,z", cs!"x+1/2,-y+1/2,z"]⟩,
  ⟨cs!"Pna2_1", 33, cs!"Pna2_1", cs!"Pna21", 4,
    [cs!"x,y,z", cs!"-x,-y,z+1/2", cs!"x+1/2,-y+1/2,z"]⟩,
  ⟨cs!"Pnn2", 34, cs!"Pnn2", cs!"Pnn2", 4,
    [cs!"x,y,z", cs!"-x,-y,z", cs!"x+1/2,-y+1/2,z+1/2"]⟩,
  ⟨cs!"Cmm2", 35, cs!"Cmm2", cs!"Cmm2", 8,
    [cs!"x,y,z", cs!"x+1/2,y+1/2,z", cs!"-x,-y,z", cs!"x,-y,z"]⟩,
  ⟨cs!"Cmc2_1", 36, cs!"Cmc2_1", cs!"Cmc21", 8,
    [cs!"x,y,z", cs!"x+1/2,y+1/2,z", cs!"-x,-y,z+1/2", cs!"x,-y,z+1/2"]⟩,
  ⟨cs!"Ccc2", 37, cs!"Ccc2", cs!"Ccc2", 8,
    [cs!"x,y,z", cs!"x+1/2,y+1/2,z", cs!"-x,-y,z", cs!"x,-y,z+1/2"]⟩,
  ⟨cs!"Amm2", 38, cs!"Amm2", cs!"Amm2", 8,
    [cs!"x,y,z", cs!"x,y+1/2,z+1/2", cs!"-x,-y,z", cs!"x,-y,z"]⟩,
  ⟨cs!"Abm2", 39, cs!"Aem2", cs!"Aem2", 8,
    [cs!"x,y,z", cs!"x,y+1/2,z+1/2", cs!"-x,-y,z", cs!"x,-y+1/2,z"]⟩,
  ⟨cs!"Ama2", 40, cs!"Ama2", cs!"Ama2", 8,
    [cs!"x,y,z", cs!"x,y+1/2,z+1/2", cs!"-x,-y,z", cs!"x+1/2,-y,z"]⟩,
  ⟨cs!"Aba2", 41, cs!"Aea2", cs!"Aea2", 8,
    [cs!"x,y,z", cs!"x,y+1/2,z+1/2", cs!"-x,-y,z", cs!"x+1/2,-y+1/2,z"]⟩,
  ⟨cs!"Fmm2", 42, cs!"Fmm2", cs!"Fmm2", 16,
    [cs!"x,y,z", cs!"x+1/2,y+1/2,z", cs!"x+1/2,y,z+1/2", cs!"-x,-y,z", cs!"x,-y,z"]⟩,
  ⟨cs!"Fdd2", 43, cs!"Fdd2", cs!"Fdd2", 16,
    [cs!"x,y,z", cs!"x+1/2,y+1/2,z", cs!"x+1/2,y,z+1/2", cs!"-x,-y,z", cs!"x+1/4,-y+1/4,z+1/4"]⟩,
  ⟨cs!"Imm2", 44, cs!"Imm2", cs!"Imm2", 8,
    [cs!"x,y,z", cs!"x+1/2,y+1/2,z+1/2", cs!"-x,-y,z", cs!"x,-y,z"]⟩,
  ⟨cs!"Iba2", 45, cs!"Iba2", cs!"Iba2", 8,
    [cs!"x,y,z", cs!"x+1/2,y+1/2,z+1/2", cs!"-x,-y,z", cs!"x+1/2,-y+1/2,z"]⟩,
  ⟨cs!"Ima2", 46, cs!"Ima2", cs!"Ima2", 8,
    [cs!"x,y,z", cs!"x+1/2,y+1/2,z+1/2", cs!"-x,-y,z", cs!"x+1/2,-y,z"]⟩]

/-- database/symmetry.json, part 2. -/
def db2 : List Entry := [
  ⟨cs!"Pmmm", 47, cs!"P2/m2/m2/m", cs!"Pmmm", 8,
    [cs!"x,y,z", cs!"-x,-y,z", cs!"-x,y,-z", cs!"-x,-y,-z"]⟩,
  ⟨cs!"Pnnn", 48, cs!"P2/n2/n2/n", cs!"Pnnn", 8,
    [cs!"x,y,z", cs!"-x+1/2,-y+1/2,z", cs!"-x+1/2,y,-z+1/2", cs!"-x,-y,-z"]⟩,
  ⟨cs!"Pccm", 49, cs!"P2/c2/c2/m", cs!"Pccm", 8,
    [cs!"x,y,z", cs!"-x,-y,z", cs!"-x,y,-z+1/2", cs!"-x,-y,-z"]⟩,
  ⟨cs!"Pban", 50, cs!"P2/b2/a2/n", cs!"Pban", 8,
    [cs!"x,y,z", cs!"-x+1/2,-y+1/2,z", cs!"-x+1/2,y,-z", cs!"-x,-y,-z"]⟩,
  ⟨cs!"Pmma", 51, cs!"P2_1/m2/m2/a", cs!"Pmma", 8,
    [cs!"x,y,z", cs!"-x+1/2,-y,z", cs!"-x,y,-z", cs!"-x,-y,-z"]⟩,
  ⟨cs!"Pnna", 52, cs!"P2/n2_1/n2/a", cs!"Pnna", 8,
    [cs!"x,y,z", cs!"-x+1/2,-y,z", cs!"-x+1/2,y+1/2,-z+1/2", cs!"-x,-y,-z"]⟩,
  ⟨cs!"Pmna", 53, cs!"P2/m2/n2_1/a", cs!"Pmna", 8,
    [cs!"x,y,z", cs!"-x+1/2,-y,z+1/2", cs!"-x+1/2,y,-z+1/2", cs!"-x,-y,-z"]⟩,
  ⟨cs!"Pcca", 54, cs!"P2_1/c2/c2/a", cs!"Pcca", 8,
    [cs!"x,y,z", cs!"-x+1/2,-y,z", cs!"-x,y,-z+1/2", cs!"-x,-y,-z"]⟩,
  ⟨cs!"Pbam", 55, cs!"P2_1/b2_1/a2/m", cs!"Pbam", 8,
    [cs!"x,y,z", cs!"-x,-y,z", cs!"-x+1/2,y+1/2,-z", cs!"-x,-y,-z"]⟩,
  ⟨cs!"Pccn", 56, cs!"P2_1/c2_1/c2/n", cs!"Pccn", 8,
    [cs!"x,y,z", cs!"-x+1/2,-y+1/2,z", cs!"-x,y+1/2,-z+1/2", cs!"-x,-y,-z"]⟩,
  ⟨cs!"Pbcm", 57, cs!"P2/b2_1/c2_1/m", cs!"Pbcm", 8,
    [cs!"x,y,z", cs!"-x,-y,z+1/2", cs!"-x,y+1/2,-z+1/2", cs!"-x,-y,-z"]⟩,
  ⟨cs!"Pnnm", 58, cs!"P2_1/n2_1/n2/m", cs!"Pnnm", 8,
    [cs!"x,y,z", cs!"-x,-y,z", cs!"-x+1/2,y+1/2,-z+1/2", cs!"-x,-y,-z"]⟩,
  ⟨cs!"Pmmn", 59, cs!"P2_1/m2_1/m2/n", cs!"Pmmn", 8,
    [cs!"x,y,z", cs!"-x+1/2,-y+1/2,z", cs!"-x,y+1/2,-z", cs!"-x,-y,-z"]⟩,
  ⟨cs!"Pbcn", 60, cs!"P2_1/b2/c2_1/n", cs!"Pbcn", 8,
    [cs!"x,y,z", cs!"-x+1/2,-y+1/2,z+1/2", cs!"-x,y,-z+1/2", cs!"-x,-y,-z"]⟩,
  ⟨cs!"Pbca", 61, cs!"P2_1/b2_1/c2_1/a", cs!"Pbca", 8,
    [cs!"x,y,z", cs!"-x+1/2,-y,z+1/2", cs!"-x,y+1/2,-z+1/2", cs!"-x,-y,-z"]⟩,
  ⟨cs!"Pnma", 62, cs!"P2_1/n2_1/m2_1/a", cs!"Pnma", 8,
    [cs!"x,y,z", cs!"-x+1/2,-y,z+1/2", cs!"-x,y+1/2,-z", cs!"-x,-y,-z"]⟩,
  ⟨cs!"Cmcm", 63, cs!"C2/m2/c2_1/m", cs!"Cmcm", 16,
    [cs!"x,y,z", cs!"x+1/2,y+1/2,z", cs!"-x,-y,z+1/2", cs!"-x,y,-z+1/2", cs!"-x,-y,-z"]⟩,
  ⟨cs!"Cmce", 64, cs!"C2/m2/c2_1/e", cs!"Cmce", 16,
    [cs!"x,y,z", cs!"x+1/2,y+1/2,z", cs!"-x,-y+1/2,z+1/2", cs!"-x,y+1/2,-z+1/2", cs!"-x,-y,-z"]⟩,
  ⟨cs!"Cmmm", 65, cs!"C2/m2/m2/m", cs!"Cmmm", 16,
    [cs!"x,y,z", cs!"x+1/2,y+1/2,z", cs!"-x,-y,z", cs!"-x,y,-z", cs!"-x,-y,-z"]⟩,
  ⟨cs!"Cccm", 66, cs!"C2/c2/c2/m", cs!"Cccm", 16,
    [cs!"x,y,z", cs!"x+1/2,y+1/2,z", cs!"-x,-y,z", cs!"-x,y,-z+1/2", cs!"-x,-y,-z"]⟩,
  ⟨cs!"Cmma", 67, cs!"C2/m2/m2/e", cs!"Cmme", 16,
    [cs!"x,y,z", cs!"x+1/2,y+1/2,z", cs!"-x,-y+1/2,z", cs!"-x,y+1/2,-z", cs!"-x,-y,-z"]⟩,
  ⟨cs!"Ccca", 68, cs!"C2/c2/c2/e", cs!"Ccce", 16,
    [cs!"x,y,z", cs!"x+1/2,y+1/2,z", cs!"-x+1/2,-y,z", cs!"-x,y,-z+1/2", cs!"-x,-y,-z"]⟩,
  ⟨cs!"Fmmm", 69, cs!"F2/m2/m2/m", cs!"Fmmm", 32,
    [cs!"x,y,z", cs!"x+1/2,y+1/2,z", cs!"x+1/2,y,z+1/2", cs!"-x,-y,z", cs!"-x,y,-z", cs!"-x,-y,-z"]⟩,
  ⟨cs!"Fddd", 70, cs!"F2/d2/d2/d", cs!"Fddd", 32,
    [cs!"x,y,z", cs!"x+1/2,y+1/2,z", cs!"x+1/2,y,z+1/2", cs!"-x+3/4,-y+3/4,z", cs!"-x+3/4,y,-z+3/4", cs!"-x,-y,-z"]⟩,
  ⟨cs!"Immm", 71, cs!"I2/m2/m2/m", cs!"Immm", 16,
    [cs!"x,y,z", cs!"x+1/2,y+1/2,z+1/2", cs!"-x,-y,z", cs!"-x,y,-z", cs!"-x,-y,-z"]⟩,
  ⟨cs!"Ibam", 72, cs!"I2/b2/a2/m", cs!"Ibam", 16,
    [cs!"x,y,z", cs!"x+1/2,y+1/2,z+1/2", cs!"-x,-y,z", cs!"-x+1/2,y+1/2,-z", cs!"-x,-y,-z"]⟩,
  ⟨cs!"Ibca", 73, cs!"I2_1/b2_1/c2_1/a", cs!"Ibca", 16,
    [cs!"x,y,z", cs!"x+1/2,y+1/2,z+1/2", cs!"-x+1/2,-y,z+1/2", cs!"-x,y+1/2,-z+1/2", cs!"-x,-y,-z"]⟩,
  ⟨cs!"Imma", 74, cs!"I2_1/m2_1/m2_1/a", cs!"Imma", 16,
    [cs!"x,y,z", cs!"x+1/2,y+1/2,z+1/2", cs!"-x,-y+1/2,z", cs!"-x,y+1/2,-z", cs!"-x,-y,-z"]⟩,
  ⟨cs!"P4", 75, cs!"P4", cs!"P4", 4,
    [cs!"x,y,z", cs!"-x,-y,z", cs!"-y,x,z"]⟩,
  ⟨cs!"P4_1", 76, cs!"P4_1", cs!"P41", 4,
    [cs!"x,y,z", cs!"-x,-y,z+1/2", cs!"-y,x,z+1/4"]⟩,
  ⟨cs!"P4_2", 77, cs!"P4_2", cs!"P42", 4,
    [cs!"x,y,z", cs!"-x,-y,z", cs!"-y,x,z+1/2"]⟩,
  ⟨cs!"P4_3", 78, cs!"P4_3", cs!"P43", 4,
    [cs!"x,y,z", cs!"-x,-y,z+1/2", cs!"-y,x,z+3/4"]⟩,
  ⟨cs!"I4", 79, cs!"I4", cs!"I4", 8,
    [cs!"x,y,z", cs!"x+1/2,y+1/2,z+1/2", cs!"-x,-y,z", cs!"-y,x,z"]⟩,
  ⟨cs!"I4_1", 80, cs!"I4_1", cs!"I41", 8,
    [cs!"x,y,z", cs!"x+1/2,y+1/2,z+1/2", cs!"-x+1/2,-y+1/2,z+1/2", cs!"-y,x+1/2,z+1/4"]⟩,
  ⟨cs!"P-4", 81, cs!"P-4", cs!"P-4", 4,
    [cs!"x,y,z", cs!"-x,-y,z", cs!"y,-x,-z"]⟩,
  ⟨cs!"I-4", 82, cs!"I-4", cs!"I-4", 8,
    [cs!"x,y,z", cs!"x+1/2,y+1/2,z+1/2", cs!"-x,-y,z", cs!"y,-x,-z"]⟩,
  ⟨cs!"P4/m", 83, cs!"P4/m", cs!"P4/m", 8,
    [cs!"x,y,z", cs!"-x,-y,z", cs!"-y,x,z", cs!"-x,-y,-z"]⟩,
  ⟨cs!"P4_2/m", 84, cs!"P4_2/m", cs!"P42/m", 8,
    [cs!"x,y,z", cs!"-x,-y,z", cs!"-y,x,z+1/2", cs!"-x,-y,-z"]⟩,
  ⟨cs!"P4/n", 85, cs!"P4/n", cs!"P4/n", 8,
    [cs!"x,y,z", cs!"-x+1/2,-y+1/2,z", cs!"-y+1/2,x,z", cs!"-x,-y,-z"]⟩,
  ⟨cs!"P4_2/n", 86, cs!"P4_2/n", cs!"P42/n", 8,
    [cs!"x,y,z", cs!"-x+1/2,-y+1/2,z", cs!"-y,x+1/2,z+1/2", cs!"-x,-y,-z"]⟩,
  ⟨cs!"I4/m", 87, cs!"I4/m", cs!"I4/m", 16,
    [cs!"x,y,z", cs!"x+1/2,y+1/2,z+1/2", cs!"-x,-y,z", cs!"-y,x,z", cs!"-x,-y,-z"]⟩,
  ⟨cs!"I4_1/a", 88, cs!"I4_1/a", cs!"I41/a", 16,
    [cs!"x,y,z", cs!"x+1/2,y+1/2,z+1/2", cs!"-x+1/2,-y,z+1/2", cs!"-y+3/4,x+1/4,z+1/4", cs!"-x,-y,-z"]⟩,
  ⟨cs!"P422", 89, cs!"P422", cs!"P422", 8,
    [cs!"x,y,z", cs!"-x,-y,z", cs!"-y,x,z", cs!"-x,y,-z"]⟩,
  ⟨cs!"P42_12", 90, cs!"P42_12", cs!"P4212", 8,
    [cs!"x,y,z", cs!"-x,-y,z", cs!"-y+1/2,x+1/2,z", cs!"-x+1/2,y+1/2,-z"]⟩,
  ⟨cs!"P4_122", 91, cs!"P4_122", cs!"P4122", 8,
    [cs!"x,y,z", cs!"-x,-y,z+1/2", cs!"-y,x,z+1/4", cs!"-x,y,-z"]⟩,
  ⟨cs!"P4_12_12", 92, cs!"P4_12_12", cs!"P41212", 8,
    [cs!"x,y,z", cs!"-x,-y,z+1/2", cs!"-y+1/2,x+1/2,z+1/4", cs!"-x+1/2,y+1/2,-z+1/4"]⟩]

/-- database/symmetry.json, part 3. -/
def db3 : List Entry := [
  ⟨cs!"P4_222", 93, cs!"P4_222", cs!"P4222", 8,
    [cs!"x,y,z", cs!"-x,-y,z", cs!"-y,x,z+1/2", cs!"-x,y,-z"]⟩,
  ⟨cs!"P4_22_12", 94, cs!"P4_22_12", cs!"P42212", 8,
    [cs!"x,y,z", cs!"-x,-y,z", cs!"-y+1/2,x+1/2,z+1/2", cs!"-x+1/2,y+1/2,-z+1/2"]⟩,
  ⟨cs!"P4_322", 95, cs!"P4_322", cs!"P4322", 8,
    [cs!"x,y,z", cs!"-x,-y,z+1/2", cs!"-y,x,z+3/4", cs!"-x,y,-z"]⟩,
  ⟨cs!"P4_32_12", 96, cs!"P4_32_12", cs!"P43212", 8,
    [cs!"x,y,z", cs!"-x,-y,z+1/2", cs!"-y+1/2,x+1/2,z+3/4", cs!"-x+1/2,y+1/2,-z+3/4"]⟩,
  ⟨cs!"I422", 97, cs!"I422", cs!"I422", 16,
    [cs!"x,y,z", cs!"x+1/2,y+1/2,z+1/2", cs!"-x,-y,z", cs!"-y,x,z", cs!"-x,y,-z"]⟩,
  ⟨cs!"I4_122", 98, cs!"I4_122", cs!"I4122", 16,
    [cs!"x,y,z", cs!"x+1/2,y+1/2,z+1/2", cs!"-x+1/2,-y+1/2,z+1/2", cs!"-y,x+1/2,z+1/4", cs!"-x+1/2,y,-z+3/4"]⟩,
  ⟨cs!"P4mm", 99, cs!"P4mm", cs!"P4mm", 8,
    [cs!"x,y,z", cs!"-x,-y,z", cs!"-y,x,z", cs!"x,-y,z"]⟩,
  ⟨cs!"P4bm", 100, cs!"P4bm", cs!"P4bm", 8,
    [cs!"x,y,z", cs!"-x,-y,z", cs!"-y,x,z", cs!"x+1/2,-y+1/2,z"]⟩,
  ⟨cs!"P4_2cm", 101, cs!"P4_2cm", cs!"P42cm", 8,
    [cs!"x,y,z", cs!"-x,-y,z", cs!"-y,x,z+1/2", cs!"x,-y,z+1/2"]⟩,
  ⟨cs!"P4_2nm", 102, cs!"P4_2nm", cs!"P42nm", 8,
    [cs!"x,y,z", cs!"-x,-y,z", cs!"-y+1/2,x+1/2,z+1/2", cs!"x+1/2,-y+1/2,z+1/2"]⟩,
  ⟨cs!"P4cc", 103, cs!"P4cc", cs!"P4cc", 8,
    [cs!"x,y,z", cs!"-x,-y,z", cs!"-y,x,z", cs!"x,-y,z+1/2"]⟩,
  ⟨cs!"P4nc", 104, cs!"P4nc", cs!"P4nc", 8,
    [cs!"x,y,z", cs!"-x,-y,z", cs!"-y,x,z", cs!"x+1/2,-y+1/2,z+1/2"]⟩,
  ⟨cs!"P4_2mc", 105, cs!"P4_2mc", cs!"P42mc", 8,
    [cs!"x,y,z", cs!"-x,-y,z", cs!"-y,x,z+1/2", cs!"x,-y,z"]⟩,
  ⟨cs!"P4_2bc", 106, cs!"P4_2bc", cs!"P42bc", 8,
    [cs!"x,y,z", cs!"-x,-y,z", cs!"-y,x,z+1/2", cs!"x+1/2,-y+1/2,z"]⟩,
  ⟨cs!"I4mm", 107, cs!"I4mm", cs!"I4mm", 16,
    [cs!"x,y,z", cs!"x+1/2,y+1/2,z+1/2", cs!"-x,-y,z", cs!"-y,x,z", cs!"x,-y,z"]⟩,
  ⟨cs!"I4cm", 108, cs!"I4cm", cs!"I4cm", 16,
    [cs!"x,y,z", cs!"x+1/2,y+1/2,z+1/2", cs!"-x,-y,z", cs!"-y,x,z", cs!"x,-y,z+1/2"]⟩,
  ⟨cs!"I4_1md", 109, cs!"I4_1md", cs!"I41md", 16,
    [cs!"x,y,z", cs!"x+1/2,y+1/2,z+1/2", cs!"-x+1/2,-y+1/2,z+1/2", cs!"-y,x+1/2,z+1/4", cs!"x,-y,z"]⟩,
  ⟨cs!"I4_1cd", 110, cs!"I4_1cd", cs!"I41cd", 16,
    [cs!"x,y,z", cs!"x+1/2,y+1/2,z+1/2", cs!"-x+1/2,-y+1/2,z+1/2", cs!"-y,x+1/2,z+1/4", cs!"x,-y,z+1/2"]⟩,
  ⟨cs!"P-42m", 111, cs!"P-42m", cs!"P-42m", 8,
    [cs!"x,y,z", cs!"-x,-y,z", cs!"y,-x,-z", cs!"-x,y,-z"]⟩,
  ⟨cs!"P-42c", 112, cs!"P-42c", cs!"P-42c", 8,
    [cs!"x,y,z", cs!"-x,-y,z", cs!"y,-x,-z", cs!"-x,y,-z+1/2"]⟩,
  ⟨cs!"P-42_1m", 113, cs!"P-42_1m", cs!"P-421m", 8,
    [cs!"x,y,z", cs!"-x,-y,z", cs!"y,-x,-z", cs!"-x+1/2,y+1/2,-z"]⟩,
  ⟨cs!"P-42_1c", 114, cs!"P-42_1c", cs!"P-421c", 8,
    [cs!"x,y,z", cs!"-x,-y,z", cs!"y,-x,-z", cs!"-x+1/2,y+1/2,-z+1/2"]⟩,
  ⟨cs!"P-4m2", 115, cs!"P-4m2", cs!"P-4m2", 8,
    [cs!"x,y,z", cs!"-x,-y,z", cs!"y,-x,-z", cs!"x,-y,z"]⟩,
  ⟨cs!"P-4c2", 116, cs!"P-4c2", cs!"P-4c2", 8,
    [cs!"x,y,z", cs!"-x,-y,z", cs!"y,-x,-z", cs!"x,-y,z+1/2"]⟩,
  ⟨cs!"P-4b2", 117, cs!"P-4b2", cs!"P-4b2", 8,
    [cs!"x,y,z", cs!"-x,-y,z", cs!"y,-x,-z", cs!"x+1/2,-y+1/2,z"]⟩,
  ⟨cs!"P-4n2", 118, cs!"P-4n2", cs!"P-4n2", 8,
    [cs!"x,y,z", cs!"-x,-y,z", cs!"y,-x,-z", cs!"x+1/2,-y+1/2,z+1/2"]⟩,
  ⟨cs!"I-4m2", 119, cs!"I-4m2", cs!"I-4m2", 16,
    [cs!"x,y,z", cs!"x+1/2,y+1/2,z+1/2", cs!"-x,-y,z", cs!"y,-x,-z", cs!"x,-y,z"]⟩,
  ⟨cs!"I-4c2", 120, cs!"I-4c2", cs!"I-4c2", 16,
    [cs!"x,y,z", cs!"x+1/2,y+1/2,z+1/2", cs!"-x,-y,z", cs!"y,-x,-z", cs!"x,-y,z+1/2"]⟩,
  ⟨cs!"I-42m", 121, cs!"I-42m", cs!"I-42m", 16,
    [cs!"x,y,z", cs!"x+1/2,y+1/2,z+1/2", cs!"-x,-y,z", cs!"y,-x,-z", cs!"-x,y,-z"]⟩,
  ⟨cs!"I-42d", 122, cs!"I-42d", cs!"I-42d", 16,
    [cs!"x,y,z", cs!"x+1/2,y+1/2,z+1/2", cs!"-x,-y,z", cs!"y,-x,-z", cs!"-x+1/2,y,-z+3/4"]⟩,
  ⟨cs!"P4/mmm", 123, cs!"P4/m2/m2/m", cs!"P4/mmm", 16,
    [cs!"x,y,z", cs!"-x,-y,z", cs!"-y,x,z", cs!"-x,y,-z", cs!"-x,-y,-z"]⟩,
  ⟨cs!"P4/mcc", 124, cs!"P4/m2/c2/c", cs!"P4/mcc", 16,
    [cs!"x,y,z", cs!"-x,-y,z", cs!"-y,x,z", cs!"-x,y,-z+1/2", cs!"-x,-y,-z"]⟩,
  ⟨cs!"P4/nbm", 125, cs!"P4/n2/b2/m", cs!"P4/nbm", 16,
    [cs!"x,y,z", cs!"-x+1/2,-y+1/2,z", cs!"-y+1/2,x,z", cs!"-x+1/2,y,-z", cs!"-x,-y,-z"]⟩,
  ⟨cs!"P4/nnc", 126, cs!"P4/n2/n2/c", cs!"P4/nnc", 16,
    [cs!"x,y,z", cs!"-x+1/2,-y+1/2,z", cs!"-y+1/2,x,z", cs!"-x+1/2,y,-z+1/2", cs!"-x,-y,-z"]⟩,
  ⟨cs!"P4/mbm", 127, cs!"P4/m2_1/b2/m", cs!"P4/mbm", 16,
    [cs!"x,y,z", cs!"-x,-y,z", cs!"-y,x,z", cs!"-x+1/2,y+1/2,-z", cs!"-x,-y,-z"]⟩,
  ⟨cs!"P4/mnc", 128, cs!"P4/m2_1/n2/c", cs!"P4/mnc", 16,
    [cs!"x,y,z", cs!"-x,-y,z", cs!"-y,x,z", cs!"-x+1/2,y+1/2,-z+1/2", cs!"-x,-y,-z"]⟩,
  ⟨cs!"P4/nmm", 129, cs!"P4/n2_1/m2/m", cs!"P4/nmm", 16,
    [cs!"x,y,z", cs!"-x+1/2,-y+1/2,z", cs!"-y+1/2,x,z", cs!"-x,y+1/2,-z", cs!"-x,-y,-z"]⟩,
  ⟨cs!"P4/ncc", 130, cs!"P4/n2_1/c2/c", cs!"P4/ncc", 16,
    [cs!"x,y,z", cs!"-x+1/2,-y+1/2,z", cs!"-y+1/2,x,z", cs!"-x,y+1/2,-z+1/2", cs!"-x,-y,-z"]⟩,
  ⟨cs!"P4_2/mmc", 131, cs!"P4_2/m2/m2/c", cs!"P42/mmc", 16,
    [cs!"x,y,z", cs!"-x,-y,z", cs!"-y,x,z+1/2", cs!"-x,y,-z", cs!"-x,-y,-z"]⟩,
  ⟨cs!"P4_2/mcm", 132, cs!"P4_2/m2/c2/m", cs!"P42/mcm", 16,
    [cs!"x,y,z", cs!"-x,-y,z", cs!"-y,x,z+1/2", cs!"-x,y,-z+1/2", cs!"-x,-y,-z"]⟩,
  ⟨cs!"P4_2/nbc", 133, cs!"P4_2/n2/b2/c", cs!"P42/nbc", 16,
    [cs!"x,y,z", cs!"-x+1/2,-y+1/2,z", cs!"-y+1/2,x,z+1/2", cs!"-x+1/2,y,-z", cs!"-x,-y,-z"]⟩,
  ⟨cs!"P4_2/nnm", 134, cs!"P4_2/n2/n2/m", cs!"P42/nnm", 16,
    [cs!"x,y,z", cs!"-x+1/2,-y+1/2,z", cs!"-y+1/2,x,z+1/2", cs!"-x+1/2,y,-z+1/2", cs!"-x,-y,-z"]⟩,
  ⟨cs!"P4_2/mbc", 135, cs!"P4_2/m2_1/b2/c", cs!"P42/mbc", 16,
    [cs!"x,y,z", cs!"-x,-y,z", cs!"-y,x,z+1/2", cs!"-x+1/2,y+1/2,-z", cs!"-x,-y,-z"]⟩,
  ⟨cs!"P4_2/mnm", 136, cs!"P4_2/m2_1/n2/m", cs!"P42/mnm", 16,
    [cs!"x,y,z", cs!"-x,-y,z", cs!"-y+1/2,x+1/2,z+1/2", cs!"-x+1/2,y+1/2,-z+1/2", cs!"-x,-y,-z"]⟩,
  ⟨cs!"P4_2/nmc", 137, cs!"P4_2/n2_1/m2/c", cs!"P42/nmc", 16,
    [cs!"x,y,z", cs!"-x+1/2,-y+1/2,z", cs!"-y+1/2,x,z+1/2", cs!"-x,y+1/2,-z", cs!"-x,-y,-z"]⟩,
  ⟨cs!"P4_2/ncm", 138, cs!"P4_2/n2_1/c2/m", cs!"P42/ncm", 16,
    [cs!"x,y,z", cs!"-x+1/2,-y+1/2,z", cs!"-y+1/2,x,z+1/2", cs!"-x,y+1/2,-z+1/2", cs!"-x,-y,-z"]⟩]

/-- database/symmetry.json, part 4. -/
def db4 : List Entry := [
  ⟨cs!"I4/mmm", 139, cs!"I4/m2/m2/m", cs!"I4/mmm", 32,
    [cs!"x,y,z", cs!"x+1/2,y+1/2,z+1/2", cs!"-x,-y,z", cs!"-y,x,z", cs!"-x,y,-z", cs!"-x,-y,-z"]⟩,
  ⟨cs!"I4/mcm", 140, cs!"I4/m2/c2/m", cs!"I4/mcm", 32,
    [cs!"x,y,z", cs!"x+1/2,y+1/2,z+1/2", cs!"-x,-y,z", cs!"-y,x,z", cs!"-x,y,-z+1/2", cs!"-x,-y,-z"]⟩,
  ⟨cs!"I4_1/amd", 141, cs!"I4_1/a2/m2/d", cs!"I41/amd", 32,
    [cs!"x,y,z", cs!"x+1/2,y+1/2,z+1/2", cs!"-x+1/2,-y,z+1/2", cs!"-y+1/4,x+3/4,z+1/4", cs!"-x+1/2,y,-z+1/2", cs!"-x,-y,-z"]⟩,
  ⟨cs!"I4_1/acd", 142, cs!"I4_1/a2/c2/d", cs!"I41/acd", 32,
    [cs!"x,y,z", cs!"x+1/2,y+1/2,z+1/2", cs!"-x+1/2,-y,z+1/2", cs!"-y+1/4,x+3/4,z+1/4", cs!"-x+1/2,y,-z", cs!"-x,-y,-z"]⟩,
  ⟨cs!"P3", 143, cs!"P3", cs!"P3", 3,
    [cs!"x,y,z", cs!"-y,x-y,z"]⟩,
  ⟨cs!"P3_1", 144, cs!"P3_1", cs!"P31", 3,
    [cs!"x,y,z", cs!"-y,x-y,z+1/3"]⟩,
  ⟨cs!"P3_2", 145, cs!"P3_2", cs!"P32", 3,
    [cs!"x,y,z", cs!"-y,x-y,z+2/3"]⟩,
  ⟨cs!"R3H", 146, cs!"R3", cs!"R3", 9,
    [cs!"x,y,z", cs!"x+1/3,y+2/3,z+2/3", cs!"-y,x-y,z"]⟩,
  ⟨cs!"P-3", 147, cs!"P-3", cs!"P-3", 6,
    [cs!"x,y,z", cs!"-y,x-y,z", cs!"-x,-y,-z"]⟩,
  ⟨cs!"R-3H", 148, cs!"R-3", cs!"R-3", 18,
    [cs!"x,y,z", cs!"x+1/3,y+2/3,z+2/3", cs!"-y,x-y,z", cs!"-x,-y,-z"]⟩,
  ⟨cs!"P312", 149, cs!"P312", cs!"P312", 6,
    [cs!"x,y,z", cs!"-y,x-y,z", cs!"-y,-x,-z"]⟩,
  ⟨cs!"P321", 150, cs!"P321", cs!"P321", 6,
    [cs!"x,y,z", cs!"-y,x-y,z", cs!"y,x,-z"]⟩,
  ⟨cs!"P3_112", 151, cs!"P3_112", cs!"P3112", 6,
    [cs!"x,y,z", cs!"-y,x-y,z+1/3", cs!"-y,-x,-z+2/3"]⟩,
  ⟨cs!"P3_121", 152, cs!"P3_121", cs!"P3121", 6,
    [cs!"x,y,z", cs!"-y,x-y,z+1/3", cs!"y,x,-z"]⟩,
  ⟨cs!"P3_212", 153, cs!"P3_212", cs!"P3212", 6,
    [cs!"x,y,z", cs!"-y,x-y,z+2/3", cs!"-y,-x,-z+1/3"]⟩,
  ⟨cs!"P3_221", 154, cs!"P3_221", cs!"P3221", 6,
    [cs!"x,y,z", cs!"-y,x-y,z+2/3", cs!"y,x,-z"]⟩,
  ⟨cs!"R32H", 155, cs!"R32", cs!"R32", 18,
    [cs!"x,y,z", cs!"x+1/3,y+2/3,z+2/3", cs!"-y,x-y,z", cs!"y,x,-z"]⟩,
  ⟨cs!"P3m1", 156, cs!"P3m1", cs!"P3m1", 6,
    [cs!"x,y,z", cs!"-y,x-y,z", cs!"-y,-x,z"]⟩,
  ⟨cs!"P31m", 157, cs!"P31m", cs!"P31m", 6,
    [cs!"x,y,z", cs!"-y,x-y,z", cs!"y,x,z"]⟩,
  ⟨cs!"P3c1", 158, cs!"P3c1", cs!"P3c1", 6,
    [cs!"x,y,z", cs!"-y,x-y,z", cs!"-y,-x,z+1/2"]⟩,
  ⟨cs!"P31c", 159, cs!"P31c", cs!"P31c", 6,
    [cs!"x,y,z", cs!"-y,x-y,z", cs!"y,x,z+1/2"]⟩,
  ⟨cs!"R3mH", 160, cs!"R3m", cs!"R3m", 18,
    [cs!"x,y,z", cs!"x+1/3,y+2/3,z+2/3", cs!"-y,x-y,z", cs!"-y,-x,z"]⟩,
  ⟨cs!"R3cH", 161, cs!"R3c", cs!"R3c", 18,
    [cs!"x,y,z", cs!"x+2/3,y+1/3,z+1/3", cs!"-y,x-y,z", cs!"-y,-x,z+1/2"]⟩,
  ⟨cs!"P-31m", 162, cs!"P-312/m", cs!"P-31m", 12,
    [cs!"x,y,z", cs!"-y,x-y,z", cs!"-y,-x,-z", cs!"-x,-y,-z"]⟩,
  ⟨cs!"P-31c", 163, cs!"P-312/c", cs!"P-31c", 12,
    [cs!"x,y,z", cs!"-y,x-y,z", cs!"-y,-x,-z+1/2", cs!"-x,-y,-z"]⟩,
  ⟨cs!"P-3m1", 164, cs!"P-32/m1", cs!"P-3m1", 12,
    [cs!"x,y,z", cs!"-y,x-y,z", cs!"y,x,-z", cs!"-x,-y,-z"]⟩,
  ⟨cs!"P-3c1", 165, cs!"P-32/c1", cs!"P-3c1", 12,
    [cs!"x,y,z", cs!"-y,x-y,z", cs!"y,x,-z+1/2", cs!"-x,-y,-z"]⟩,
  ⟨cs!"R-3mH", 166, cs!"R-32/m", cs!"R-3m", 36,
    [cs!"x,y,z", cs!"x+1/3,y+2/3,z+2/3", cs!"-y,x-y,z", cs!"y,x,-z", cs!"-x,-y,-z"]⟩,
  ⟨cs!"R-3cH", 167, cs!"R-32/c", cs!"R-3c", 36,
    [cs!"x,y,z", cs!"x+2/3,y+1/3,z+1/3", cs!"-y,x-y,z", cs!"y,x,-z+1/2", cs!"-x,-y,-z"]⟩,
  ⟨cs!"P6", 168, cs!"P6", cs!"P6", 6,
    [cs!"x,y,z", cs!"-y,x-y,z", cs!"-x,-y,z"]⟩,
  ⟨cs!"P6_1", 169, cs!"P6_1", cs!"P61", 6,
    [cs!"x,y,z", cs!"-y,x-y,z+1/3", cs!"-x,-y,z+1/2"]⟩,
  ⟨cs!"P6_5", 170, cs!"P6_5", cs!"P65", 6,
    [cs!"x,y,z", cs!"-y,x-y,z+2/3", cs!"-x,-y,z+1/2"]⟩,
  ⟨cs!"P6_2", 171, cs!"P6_2", cs!"P62", 6,
    [cs!"x,y,z", cs!"-y,x-y,z+2/3", cs!"-x,-y,z"]⟩,
  ⟨cs!"P6_4", 172, cs!"P6_4", cs!"P64", 6,
    [cs!"x,y,z", cs!"-y,x-y,z+1/3", cs!"-x,-y,z"]⟩,
  ⟨cs!"P6_3", 173, cs!"P6_3", cs!"P63", 6,
    [cs!"x,y,z", cs!"-y,x-y,z", cs!"-x,-y,z+1/2"]⟩,
  ⟨cs!"P-6", 174, cs!"P-6", cs!"P-6", 6,
    [cs!"x,y,z", cs!"-y,x-y,z", cs!"x,y,-z"]⟩,
  ⟨cs!"P6/m", 175, cs!"P6/m", cs!"P6/m", 12,
    [cs!"x,y,z", cs!"-y,x-y,z", cs!"-x,-y,z", cs!"-x,-y,-z"]⟩,
  ⟨cs!"P6_3/m", 176, cs!"P6_3/m", cs!"P63/m", 12,
    [cs!"x,y,z", cs!"-y,x-y,z", cs!"-x,-y,z+1/2", cs!"-x,-y,-z"]⟩,
  ⟨cs!"P622", 177, cs!"P622", cs!"P622", 12,
    [cs!"x,y,z", cs!"-y,x-y,z", cs!"-x,-y,z", cs!"y,x,-z"]⟩,
  ⟨cs!"P6_122", 178, cs!"P6_122", cs!"P6122", 12,
    [cs!"x,y,z", cs!"-y,x-y,z+1/3", cs!"-x,-y,z+1/2", cs!"y,x,-z+1/3"]⟩,
  ⟨cs!"P6_522", 179, cs!"P6_522", cs!"P6522", 12,
    [cs!"x,y,z", cs!"-y,x-y,z+2/3", cs!"-x,-y,z+1/2", cs!"y,x,-z+2/3"]⟩,
  ⟨cs!"P6_222", 180, cs!"P6_222", cs!"P6222", 12,
    [cs!"x,y,z", cs!"-y,x-y,z+2/3", cs!"-x,-y,z", cs!"y,x,-z+2/3"]⟩,
  ⟨cs!"P6_422", 181, cs!"P6_422", cs!"P6422", 12,
    [cs!"x,y,z", cs!"-y,x-y,z+1/3", cs!"-x,-y,z", cs!"y,x,-z+1/3"]⟩,
  ⟨cs!"P6_322", 182, cs!"P6_322", cs!"P6322", 12,
    [cs!"x,y,z", cs!"-y,x-y,z", cs!"-x,-y,z+1/2", cs!"y,x,-z"]⟩,
  ⟨cs!"P6mm", 183, cs!"P6mm", cs!"P6mm", 12,
    [cs!"x,y,z", cs!"-y,x-y,z", cs!"-x,-y,z", cs!"-y,-x,z"]⟩,
  ⟨cs!"P6cc", 184, cs!"P6cc", cs!"P6cc", 12,
    [cs!"x,y,z", cs!"-y,x-y,z", cs!"-x,-y,z", cs!"-y,-x,z+1/2"]⟩]

/-- database/symmetry.json, part 5. -/
def db5 : List Entry := [
  ⟨cs!"P6_3cm", 185, cs!"P6_3cm", cs!"P63cm", 12,
    [cs!"x,y,z", cs!"-y,x-y,z", cs!"-x,-y,z+1/2", cs!"-y,-x,z+1/2"]⟩,
  ⟨cs!"P6_3mc", 186, cs!"P6_3mc", cs!"P63mc", 12,
    [cs!"x,y,z", cs!"-y,x-y,z", cs!"-x,-y,z+1/2", cs!"-y,-x,z"]⟩,
  ⟨cs!"P-6m2", 187, cs!"P-6m2", cs!"P-6m2", 12,
    [cs!"x,y,z", cs!"-y,x-y,z", cs!"x,y,-z", cs!"-y,-x,z"]⟩,
  ⟨cs!"P-6c2", 188, cs!"P-6c2", cs!"P-6c2", 12,
    [cs!"x,y,z", cs!"-y,x-y,z", cs!"x,y,-z+1/2", cs!"-y,-x,z+1/2"]⟩,
  ⟨cs!"P-62m", 189, cs!"P-62m", cs!"P-62m", 12,
    [cs!"x,y,z", cs!"-y,x-y,z", cs!"x,y,-z", cs!"y,x,-z"]⟩,
  ⟨cs!"P-62c", 190, cs!"P-62c", cs!"P-62c", 12,
    [cs!"x,y,z", cs!"-y,x-y,z", cs!"x,y,-z+1/2", cs!"y,x,-z"]⟩,
  ⟨cs!"P6/mmm", 191, cs!"P6/m2/m2/m", cs!"P6/mmm", 24,
    [cs!"x,y,z", cs!"-y,x-y,z", cs!"-x,-y,z", cs!"y,x,-z", cs!"-x,-y,-z"]⟩,
  ⟨cs!"P6/mcc", 192, cs!"P6/m2/c2/c", cs!"P6/mcc", 24,
    [cs!"x,y,z", cs!"-y,x-y,z", cs!"-x,-y,z", cs!"y,x,-z+1/2", cs!"-x,-y,-z"]⟩,
  ⟨cs!"P6_3/mcm", 193, cs!"P6_3/m2/c2/m", cs!"P63/mcm", 24,
    [cs!"x,y,z", cs!"-y,x-y,z", cs!"-x,-y,z+1/2", cs!"y,x,-z+1/2", cs!"-x,-y,-z"]⟩,
  ⟨cs!"P6_3/mmc", 194, cs!"P6_3/m2/m2/c", cs!"P63/mmc", 24,
    [cs!"x,y,z", cs!"-y,x-y,z", cs!"-x,-y,z+1/2", cs!"y,x,-z", cs!"-x,-y,-z"]⟩,
  ⟨cs!"P23", 195, cs!"P23", cs!"P23", 12,
    [cs!"x,y,z", cs!"-x,-y,z", cs!"-x,y,-z", cs!"z,x,y"]⟩,
  ⟨cs!"F23", 196, cs!"F23", cs!"F23", 48,
    [cs!"x,y,z", cs!"x+1/2,y+1/2,z", cs!"x+1/2,y,z+1/2", cs!"-x,-y,z", cs!"-x,y,-z", cs!"z,x,y"]⟩,
  ⟨cs!"I23", 197, cs!"I23", cs!"I23", 24,
    [cs!"x,y,z", cs!"x+1/2,y+1/2,z+1/2", cs!"-x,-y,z", cs!"-x,y,-z", cs!"z,x,y"]⟩,
  ⟨cs!"P2_13", 198, cs!"P2_13", cs!"P213", 12,
    [cs!"x,y,z", cs!"-x+1/2,-y,z+1/2", cs!"-x,y+1/2,-z+1/2", cs!"z,x,y"]⟩,
  ⟨cs!"I2_13", 199, cs!"I2_13", cs!"I213", 24,
    [cs!"x,y,z", cs!"x+1/2,y+1/2,z+1/2", cs!"-x+1/2,-y,z+1/2", cs!"-x,y+1/2,-z+1/2", cs!"z,x,y"]⟩,
  ⟨cs!"Pm-3", 200, cs!"P2/m-3", cs!"Pm-3", 24,
    [cs!"x,y,z", cs!"-x,-y,z", cs!"-x,y,-z", cs!"z,x,y", cs!"-x,-y,-z"]⟩,
  ⟨cs!"Pn-3", 201, cs!"P2/n-3", cs!"Pn-3", 24,
    [cs!"x,y,z", cs!"-x+1/2,-y+1/2,z", cs!"-x+1/2,y,-z+1/2", cs!"z,x,y", cs!"-x,-y,-z"]⟩,
  ⟨cs!"Fm-3", 202, cs!"F2/m-3", cs!"Fm-3", 96,
    [cs!"x,y,z", cs!"x+1/2,y+1/2,z", cs!"x+1/2,y,z+1/2", cs!"-x,-y,z", cs!"-x,y,-z", cs!"z,x,y", cs!"-x,-y,-z"]⟩,
  ⟨cs!"Fd-3", 203, cs!"F2/d-3", cs!"Fd-3", 96,
    [cs!"x,y,z", cs!"x+1/2,y+1/2,z", cs!"x+1/2,y,z+1/2", cs!"-x+1/4,-y+1/4,z", cs!"-x+1/4,y,-z+1/4", cs!"z,x,y", cs!"-x,-y,-z"]⟩,
  ⟨cs!"Im-3", 204, cs!"I2/m-3", cs!"Im-3", 48,
    [cs!"x,y,z", cs!"x+1/2,y+1/2,z+1/2", cs!"-x,-y,z", cs!"-x,y,-z", cs!"z,x,y", cs!"-x,-y,-z"]⟩,
  ⟨cs!"Pa-3", 205, cs!"P2_1/a-3", cs!"Pa-3", 24,
    [cs!"x,y,z", cs!"-x+1/2,-y,z+1/2", cs!"-x,y+1/2,-z+1/2", cs!"z,x,y", cs!"-x,-y,-z"]⟩,
  ⟨cs!"Ia-3", 206, cs!"I2_1/a-3", cs!"Ia-3", 48,
    [cs!"x,y,z", cs!"x+1/2,y+1/2,z+1/2", cs!"-x+1/2,-y,z+1/2", cs!"-x,y+1/2,-z+1/2", cs!"z,x,y", cs!"-x,-y,-z"]⟩,
  ⟨cs!"P432", 207, cs!"P432", cs!"P432", 24,
    [cs!"x,y,z", cs!"-x,-y,z", cs!"-x,y,-z", cs!"z,x,y", cs!"y,x,-z"]⟩,
  ⟨cs!"P4_232", 208, cs!"P4_232", cs!"P4232", 24,
    [cs!"x,y,z", cs!"-x,-y,z", cs!"-x,y,-z", cs!"z,x,y", cs!"y+1/2,x+1/2,-z+1/2"]⟩,
  ⟨cs!"F432", 209, cs!"F432", cs!"F432", 96,
    [cs!"x,y,z", cs!"x+1/2,y+1/2,z", cs!"x+1/2,y,z+1/2", cs!"-x,-y,z", cs!"-x,y,-z", cs!"z,x,y", cs!"y,x,-z"]⟩,
  ⟨cs!"F4_132", 210, cs!"F4_132", cs!"F4132", 96,
    [cs!"x,y,z", cs!"x+1/2,y+1/2,z", cs!"x+1/2,y,z+1/2", cs!"-x,-y+1/2,z+1/2", cs!"-x+1/2,y+1/2,-z", cs!"z,x,y", cs!"y+3/4,x+1/4,-z+3/4"]⟩,
  ⟨cs!"I432", 211, cs!"I432", cs!"I432", 48,
    [cs!"x,y,z", cs!"x+1/2,y+1/2,z+1/2", cs!"-x,-y,z", cs!"-x,y,-z", cs!"z,x,y", cs!"y,x,-z"]⟩,
  ⟨cs!"P4_332", 212, cs!"P4_332", cs!"P4332", 24,
    [cs!"x,y,z", cs!"-x+1/2,-y,z+1/2", cs!"-x,y+1/2,-z+1/2", cs!"z,x,y", cs!"y+1/4,x+3/4,-z+3/4"]⟩,
  ⟨cs!"P4_132", 213, cs!"P4_132", cs!"P4132", 24,
    [cs!"x,y,z", cs!"-x+1/2,-y,z+1/2", cs!"-x,y+1/2,-z+1/2", cs!"z,x,y", cs!"y+3/4,x+1/4,-z+1/4"]⟩,
  ⟨cs!"I4_132", 214, cs!"I4_132", cs!"I4132", 48,
    [cs!"x,y,z", cs!"x+1/2,y+1/2,z+1/2", cs!"-x+1/2,-y,z+1/2", cs!"-x,y+1/2,-z+1/2", cs!"z,x,y", cs!"y+3/4,x+1/4,-z+1/4"]⟩,
  ⟨cs!"P-43m", 215, cs!"P-43m", cs!"P-43m", 24,
    [cs!"x,y,z", cs!"-x,-y,z", cs!"-x,y,-z", cs!"z,x,y", cs!"y,x,z"]⟩,
  ⟨cs!"F-43m", 216, cs!"F-43m", cs!"F-43m", 96,
    [cs!"x,y,z", cs!"x+1/2,y+1/2,z", cs!"x+1/2,y,z+1/2", cs!"-x,-y,z", cs!"-x,y,-z", cs!"z,x,y", cs!"y,x,z"]⟩,
  ⟨cs!"I-43m", 217, cs!"I-43m", cs!"I-43m", 48,
    [cs!"x,y,z", cs!"x+1/2,y+1/2,z+1/2", cs!"-x,-y,z", cs!"-x,y,-z", cs!"z,x,y", cs!"y,x,z"]⟩,
  ⟨cs!"P-43n", 218, cs!"P-43n", cs!"P-43n", 24,
    [cs!"x,y,z", cs!"-x,-y,z", cs!"-x,y,-z", cs!"z,x,y", cs!"y+1/2,x+1/2,z+1/2"]⟩,
  ⟨cs!"F-43c", 219, cs!"F-43c", cs!"F-43c", 96,
    [cs!"x,y,z", cs!"x+1/2,y+1/2,z", cs!"x+1/2,y,z+1/2", cs!"-x,-y,z", cs!"-x,y,-z", cs!"z,x,y", cs!"y+1/2,x+1/2,z+1/2"]⟩,
  ⟨cs!"I-43d", 220, cs!"I-43d", cs!"I-43d", 48,
    [cs!"x,y,z", cs!"x+1/2,y+1/2,z+1/2", cs!"-x+1/2,-y,z+1/2", cs!"-x,y+1/2,-z+1/2", cs!"z,x,y", cs!"y+1/4,x+1/4,z+1/4"]⟩,
  ⟨cs!"Pm-3m", 221, cs!"P4/m-32/m", cs!"Pm-3m", 48,
    [cs!"x,y,z", cs!"-x,-y,z", cs!"-x,y,-z", cs!"z,x,y", cs!"y,x,-z", cs!"-x,-y,-z"]⟩,
  ⟨cs!"Pn-3n", 222, cs!"P4/n-32/n", cs!"Pn-3n", 48,
    [cs!"x,y,z", cs!"-x+1/2,-y+1/2,z", cs!"-x+1/2,y,-z+1/2", cs!"z,x,y", cs!"y,x,-z+1/2", cs!"-x,-y,-z"]⟩,
  ⟨cs!"Pm-3n", 223, cs!"P4_2/m-32/n", cs!"Pm-3n", 48,
    [cs!"x,y,z", cs!"-x,-y,z", cs!"-x,y,-z", cs!"z,x,y", cs!"y+1/2,x+1/2,-z+1/2", cs!"-x,-y,-z"]⟩,
  ⟨cs!"Pn-3m", 224, cs!"P4_2/n-32/m", cs!"Pn-3m", 48,
    [cs!"x,y,z", cs!"-x+1/2,-y+1/2,z", cs!"-x+1/2,y,-z+1/2", cs!"z,x,y", cs!"y+1/2,x+1/2,-z", cs!"-x,-y,-z"]⟩,
  ⟨cs!"Fm-3m", 225, cs!"F4/m-32/m", cs!"Fm-3m", 192,
    [cs!"x,y,z", cs!"x+1/2,y+1/2,z", cs!"x+1/2,y,z+1/2", cs!"-x,-y,z", cs!"-x,y,-z", cs!"z,x,y", cs!"y,x,-z", cs!"-x,-y,-z"]⟩,
  ⟨cs!"Fm-3c", 226, cs!"F4/m-32/c", cs!"Fm-3c", 192,
    [cs!"x,y,z", cs!"x+1/2,y+1/2,z", cs!"x+1/2,y,z+1/2", cs!"-x,-y,z", cs!"-x,y,-z", cs!"z,x,y", cs!"y+1/2,x+1/2,-z+1/2", cs!"-x,-y,-z"]⟩,
  ⟨cs!"Fd-3m", 227, cs!"F4_1/d-32/m", cs!"Fd-3m", 192,
    [cs!"x,y,z", cs!"x+1/2,y+1/2,z", cs!"x+1/2,y,z+1/2", cs!"-x+3/4,-y+1/4,z+1/2", cs!"-x+1/4,y+1/2,-z+3/4", cs!"z,x,y", cs!"y+3/4,x+1/4,-z+1/2", cs!"-x,-y,-z"]⟩,
  ⟨cs!"Fd-3c", 228, cs!"F4_1/d-32/c", cs!"Fd-3c", 192,
    [cs!"x,y,z", cs!"x+1/2,y+1/2,z", cs!"x+1/2,y,z+1/2", cs!"-x+1/4,-y+3/4,z+1/2", cs!"-x+3/4,y+1/2,-z+1/4", cs!"z,x,y", cs!"y+3/4,x+1/4,-z", cs!"-x,-y,-z"]⟩,
  ⟨cs!"Im-3m", 229, cs!"I4/m-32/m", cs!"Im-3m", 96,
    [cs!"x,y,z", cs!"x+1/2,y+1/2,z+1/2", cs!"-x,-y,z", cs!"-x,y,-z", cs!"z,x,y", cs!"y,x,-z", cs!"-x,-y,-z"]⟩,
  ⟨cs!"Ia-3d", 230, cs!"I4_1/a-32/d", cs!"Ia-3d", 96,
    [cs!"x,y,z", cs!"x+1/2,y+1/2,z+1/2", cs!"-x+1/2,-y,z+1/2", cs!"-x,y+1/2,-z+1/2", cs!"z,x,y", cs!"y+3/4,x+1/4,-z+1/4", cs!"-x,-y,-z"]⟩]

/-- The whole of database/symmetry.json. -/
def database : List Entry := db1 ++ db2 ++ db3 ++ db4 ++ db5

end Verif.Symmetry
