import Verif.Common.Chars

/-! # The names in the tables of elements and of scattering lengths -/

namespace Verif.Structure.Ions

/-- An entry of `neutronpy/database/scattering_lengths.json`: its name, and whether `Coh b`, `Coh xs`, `Inc xs` and `Abs xs` are given (or `null`). -/
structure Row where
  name : List Char
  b : Bool
  coh : Bool
  inc : Bool
  abs : Bool
  deriving DecidableEq

/-- The names of the elements (`neutronpy/database/periodic_table.json`). -/
def elements : List (List Char) := [
  cs!"Ac", cs!"Ag", cs!"Al", cs!"Am", cs!"Ar", cs!"As", cs!"At", cs!"Au", cs!"B", cs!"Ba", cs!"Be", cs!"Bh",
  cs!"Bi", cs!"Bk", cs!"Br", cs!"C", cs!"Ca", cs!"Cd", cs!"Ce", cs!"Cf", cs!"Cl", cs!"Cm", cs!"Co", cs!"Cr",
  cs!"Cs", cs!"Cu", cs!"Db", cs!"Dy", cs!"Er", cs!"Es", cs!"Eu", cs!"F", cs!"Fe", cs!"Fm", cs!"Fr", cs!"Ga",
  cs!"Gd", cs!"Ge", cs!"H", cs!"He", cs!"Hf", cs!"Hg", cs!"Ho", cs!"Hs", cs!"I", cs!"In", cs!"Ir", cs!"K",
  cs!"Kr", cs!"La", cs!"Li", cs!"Lr", cs!"Lu", cs!"Md", cs!"Mg", cs!"Mn", cs!"Mo", cs!"Mt", cs!"N", cs!"Na",
  cs!"Nb", cs!"Nd", cs!"Ne", cs!"Ni", cs!"No", cs!"Np", cs!"O", cs!"Os", cs!"P", cs!"Pa", cs!"Pb", cs!"Pd",
  cs!"Pm", cs!"Po", cs!"Pr", cs!"Pt", cs!"Pu", cs!"Ra", cs!"Rb", cs!"Re", cs!"Rf", cs!"Rh", cs!"Rn", cs!"Ru",
  cs!"S", cs!"Sb", cs!"Sc", cs!"Se", cs!"Sg", cs!"Si", cs!"Sm", cs!"Sn", cs!"Sr", cs!"Ta", cs!"Tb", cs!"Tc",
  cs!"Te", cs!"Th", cs!"Ti", cs!"Tl", cs!"Tm", cs!"U", cs!"V", cs!"W", cs!"Xe", cs!"Y", cs!"Yb", cs!"Zn",
  cs!"Zr"]

/-- `neutronpy/database/scattering_lengths.json`. -/
def lengths : List Row := [
  ⟨cs!"100Mo", true, true, true, true⟩, ⟨cs!"100Ru", false, false, true, true⟩, ⟨cs!"101Ru", false, false, false, true⟩,
  ⟨cs!"102Pd", true, true, true, true⟩, ⟨cs!"102Ru", false, false, true, true⟩, ⟨cs!"104Pd", true, true, true, true⟩,
  ⟨cs!"104Ru", false, false, true, true⟩, ⟨cs!"105Pd", true, true, true, true⟩, ⟨cs!"106Cd", true, true, true, true⟩,
  ⟨cs!"106Pd", true, true, true, true⟩, ⟨cs!"107Ag", true, true, true, true⟩, ⟨cs!"108Cd", true, true, true, true⟩,
  ⟨cs!"108Pd", true, true, true, true⟩, ⟨cs!"109Ag", true, true, true, true⟩, ⟨cs!"10B", true, true, true, true⟩,
  ⟨cs!"110Cd", true, true, true, true⟩, ⟨cs!"110Pd", true, true, true, true⟩, ⟨cs!"111Cd", true, true, true, true⟩,
  ⟨cs!"112Cd", true, true, true, true⟩, ⟨cs!"112Sn", true, true, true, true⟩, ⟨cs!"113Cd", true, true, true, true⟩,
  ⟨cs!"113In", true, true, true, true⟩, ⟨cs!"114Cd", true, true, true, true⟩, ⟨cs!"114Sn", true, true, true, true⟩,
  ⟨cs!"115In", true, true, true, true⟩, ⟨cs!"115Sn", true, true, true, true⟩, ⟨cs!"116Cd", true, true, true, true⟩,
  ⟨cs!"116Sn", true, true, true, true⟩, ⟨cs!"117Sn", true, true, true, true⟩, ⟨cs!"118Sn", true, true, true, true⟩,
  ⟨cs!"119Sn", true, true, true, true⟩, ⟨cs!"11B", true, true, true, true⟩, ⟨cs!"120Sn", true, true, true, true⟩,
  ⟨cs!"120Te", true, true, true, true⟩, ⟨cs!"121Sb", true, true, true, true⟩, ⟨cs!"122Sn", true, true, true, true⟩,
  ⟨cs!"122Te", true, true, true, true⟩, ⟨cs!"123Sb", true, true, true, true⟩, ⟨cs!"123Te", true, true, true, true⟩,
  ⟨cs!"124Sn", true, true, true, true⟩, ⟨cs!"124Te", true, true, true, true⟩, ⟨cs!"124Xe", false, false, true, true⟩,
  ⟨cs!"125Te", true, true, true, true⟩, ⟨cs!"126Te", true, true, true, true⟩, ⟨cs!"126Xe", false, false, true, true⟩,
  ⟨cs!"128Te", true, true, true, true⟩, ⟨cs!"12C", true, true, true, true⟩, ⟨cs!"130Ba", true, true, true, true⟩,
  ⟨cs!"130Te", true, true, true, true⟩, ⟨cs!"132Ba", true, true, true, true⟩, ⟨cs!"132Xe", false, false, true, true⟩,
  ⟨cs!"134Ba", true, true, true, true⟩, ⟨cs!"134Xe", false, false, true, true⟩, ⟨cs!"135Ba", true, true, true, true⟩,
  ⟨cs!"136Ba", true, true, true, true⟩, ⟨cs!"136Ce", true, true, true, true⟩, ⟨cs!"136Xe", false, false, true, true⟩,
  ⟨cs!"137Ba", true, true, true, true⟩, ⟨cs!"138Ba", true, true, true, true⟩, ⟨cs!"138Ce", true, true, true, true⟩,
  ⟨cs!"138La", true, true, true, true⟩, ⟨cs!"139La", true, true, true, true⟩, ⟨cs!"13C", true, true, true, true⟩,
  ⟨cs!"140Ce", true, true, true, true⟩, ⟨cs!"142Ce", true, true, true, true⟩, ⟨cs!"142Nd", true, true, true, true⟩,
  ⟨cs!"143Nd", true, true, true, true⟩, ⟨cs!"144Nd", true, true, true, true⟩, ⟨cs!"144Sm", true, true, true, true⟩,
  ⟨cs!"145Nd", true, true, true, true⟩, ⟨cs!"146Nd", true, true, true, true⟩, ⟨cs!"147Sm", true, true, true, true⟩,
  ⟨cs!"148Nd", true, true, true, true⟩, ⟨cs!"148Sm", true, true, true, true⟩, ⟨cs!"149Sm", true, true, true, true⟩,
  ⟨cs!"14N", true, true, true, true⟩, ⟨cs!"150Nd", true, true, true, true⟩, ⟨cs!"150Sm", true, true, true, true⟩,
  ⟨cs!"151Eu", true, true, true, true⟩, ⟨cs!"152Gd", true, true, true, true⟩, ⟨cs!"152Sm", true, true, true, true⟩,
  ⟨cs!"153Eu", true, true, true, true⟩, ⟨cs!"154Gd", true, true, true, true⟩, ⟨cs!"154Sm", true, true, true, true⟩,
  ⟨cs!"155Gd", true, true, true, true⟩, ⟨cs!"156Dy", true, true, true, true⟩, ⟨cs!"156Gd", true, true, true, true⟩,
  ⟨cs!"157Gd", true, true, true, true⟩, ⟨cs!"158Dy", true, true, true, true⟩, ⟨cs!"158Gd", true, true, true, true⟩,
  ⟨cs!"15N", true, true, true, true⟩, ⟨cs!"160Dy", true, true, true, true⟩, ⟨cs!"160Gd", true, true, true, true⟩,
  ⟨cs!"161Dy", true, true, true, true⟩, ⟨cs!"162Dy", true, true, true, true⟩, ⟨cs!"162Er", true, true, true, true⟩,
  ⟨cs!"163Dy", true, true, true, true⟩, ⟨cs!"164Dy", true, true, true, true⟩, ⟨cs!"164Er", true, true, true, true⟩,
  ⟨cs!"166Er", true, true, true, true⟩, ⟨cs!"167Er", true, true, true, true⟩, ⟨cs!"168Er", true, true, true, true⟩,
  ⟨cs!"168Yb", true, true, true, true⟩, ⟨cs!"16O", true, true, true, true⟩, ⟨cs!"170Er", true, true, true, true⟩,
  ⟨cs!"170Yb", true, true, true, true⟩, ⟨cs!"171Yb", true, true, true, true⟩, ⟨cs!"172Yb", true, true, true, true⟩,
  ⟨cs!"173Yb", true, true, true, true⟩, ⟨cs!"174Hf", true, true, true, true⟩, ⟨cs!"174Yb", true, true, true, true⟩,
  ⟨cs!"175Lu", true, true, true, true⟩, ⟨cs!"176Hf", true, true, true, true⟩, ⟨cs!"176Lu", true, true, true, true⟩,
  ⟨cs!"176Yb", true, true, true, true⟩, ⟨cs!"177Hf", true, true, true, true⟩, ⟨cs!"178Hf", true, true, true, true⟩,
  ⟨cs!"179Hf", true, true, true, true⟩, ⟨cs!"17O", true, true, true, true⟩, ⟨cs!"180Hf", true, true, true, true⟩,
  ⟨cs!"180Ta", true, true, true, true⟩, ⟨cs!"180W", true, true, true, true⟩, ⟨cs!"181Ta", true, true, true, true⟩,
  ⟨cs!"182W", true, true, true, true⟩, ⟨cs!"183W", true, true, true, true⟩, ⟨cs!"184Os", true, true, true, true⟩,
  ⟨cs!"184W", true, true, true, true⟩, ⟨cs!"185Re", true, true, true, true⟩, ⟨cs!"186Os", true, true, true, true⟩,
  ⟨cs!"186W", true, true, true, true⟩, ⟨cs!"187Os", true, true, true, true⟩, ⟨cs!"187Re", true, true, true, true⟩,
  ⟨cs!"188Os", true, true, true, true⟩, ⟨cs!"189Os", true, true, true, true⟩, ⟨cs!"18O", true, true, true, true⟩,
  ⟨cs!"190Os", true, true, true, true⟩, ⟨cs!"190Pt", true, true, true, true⟩, ⟨cs!"191Ir", false, false, false, true⟩,
  ⟨cs!"192Os", true, true, true, true⟩, ⟨cs!"192Pt", true, true, true, true⟩, ⟨cs!"193Ir", false, false, false, true⟩,
  ⟨cs!"194Pt", true, true, true, true⟩, ⟨cs!"195Pt", true, true, true, true⟩, ⟨cs!"196Hg", true, true, true, true⟩,
  ⟨cs!"196Pt", true, true, true, true⟩, ⟨cs!"198Hg", false, false, true, true⟩, ⟨cs!"198Pt", true, true, true, true⟩,
  ⟨cs!"199Hg", true, true, true, true⟩, ⟨cs!"1H", true, true, true, true⟩, ⟨cs!"202Hg", false, false, true, true⟩,
  ⟨cs!"204Hg", false, false, true, true⟩, ⟨cs!"204Pb", true, true, true, true⟩, ⟨cs!"205Tl", true, true, true, true⟩,
  ⟨cs!"206Pb", true, true, true, true⟩, ⟨cs!"207Pb", true, true, true, true⟩, ⟨cs!"208Pb", true, true, true, true⟩,
  ⟨cs!"20Ne", true, true, true, true⟩, ⟨cs!"21Ne", true, true, true, true⟩, ⟨cs!"22Ne", true, true, true, true⟩,
  ⟨cs!"233U", true, true, true, true⟩, ⟨cs!"234U", true, true, true, true⟩, ⟨cs!"235U", true, true, true, true⟩,
  ⟨cs!"238Pu", true, true, true, true⟩, ⟨cs!"238U", true, true, true, true⟩, ⟨cs!"239Pu", true, true, true, true⟩,
  ⟨cs!"240Pu", true, true, true, true⟩, ⟨cs!"242Pu", true, true, true, true⟩, ⟨cs!"244Cm", true, true, true, true⟩,
  ⟨cs!"246Cm", true, true, true, true⟩, ⟨cs!"248Cm", true, true, true, true⟩, ⟨cs!"24Mg", true, true, true, true⟩,
  ⟨cs!"25Mg", true, true, true, true⟩, ⟨cs!"26Mg", true, true, true, true⟩, ⟨cs!"28Si", true, true, true, true⟩,
  ⟨cs!"29Si", true, true, true, true⟩, ⟨cs!"2H", true, true, true, true⟩, ⟨cs!"30Si", true, true, true, true⟩,
  ⟨cs!"32S", true, true, true, true⟩, ⟨cs!"33S", true, true, true, true⟩, ⟨cs!"34S", true, true, true, true⟩,
  ⟨cs!"35Cl", true, true, true, true⟩, ⟨cs!"36Ar", true, true, true, true⟩, ⟨cs!"36S", true, true, true, true⟩,
  ⟨cs!"37Cl", true, true, true, true⟩, ⟨cs!"38Ar", true, true, true, true⟩, ⟨cs!"39K", true, true, true, true⟩,
  ⟨cs!"3H", true, true, true, true⟩, ⟨cs!"3He", true, true, true, true⟩, ⟨cs!"40Ar", true, true, true, true⟩,
  ⟨cs!"40Ca", true, true, true, true⟩, ⟨cs!"40K", true, true, true, true⟩, ⟨cs!"41K", true, true, true, true⟩,
  ⟨cs!"42Ca", true, true, true, true⟩, ⟨cs!"43Ca", true, true, true, true⟩, ⟨cs!"44Ca", true, true, true, true⟩,
  ⟨cs!"46Ca", true, true, true, true⟩, ⟨cs!"46Ti", true, true, true, true⟩, ⟨cs!"47Ti", true, true, true, true⟩,
  ⟨cs!"48Ca", true, true, true, true⟩, ⟨cs!"48Ti", true, true, true, true⟩, ⟨cs!"49Ti", true, true, true, true⟩,
  ⟨cs!"4He", true, true, true, true⟩, ⟨cs!"50Cr", true, true, true, true⟩, ⟨cs!"50Ti", true, true, true, true⟩,
  ⟨cs!"50V", true, true, true, true⟩, ⟨cs!"51V", true, true, true, true⟩, ⟨cs!"52Cr", true, true, true, true⟩,
  ⟨cs!"53Cr", true, true, true, true⟩, ⟨cs!"54Cr", true, true, true, true⟩, ⟨cs!"54Fe", true, true, true, true⟩,
  ⟨cs!"56Fe", true, true, true, true⟩, ⟨cs!"57Fe", true, true, true, true⟩, ⟨cs!"58Fe", true, true, true, true⟩,
  ⟨cs!"58Ni", true, true, true, true⟩, ⟨cs!"60Ni", true, true, true, true⟩, ⟨cs!"61Ni", true, true, true, true⟩,
  ⟨cs!"62Ni", true, true, true, true⟩, ⟨cs!"63Cu", true, true, true, true⟩, ⟨cs!"64Ni", true, true, true, true⟩,
  ⟨cs!"64Zn", true, true, true, true⟩, ⟨cs!"65Cu", true, true, true, true⟩, ⟨cs!"66Zn", true, true, true, true⟩,
  ⟨cs!"67Zn", true, true, true, true⟩, ⟨cs!"68Zn", true, true, true, true⟩, ⟨cs!"69Ga", true, true, true, true⟩,
  ⟨cs!"6Li", true, true, true, true⟩, ⟨cs!"70Ge", true, true, true, true⟩, ⟨cs!"70Zn", true, true, true, true⟩,
  ⟨cs!"71Ga", true, true, true, true⟩, ⟨cs!"72Ge", true, true, true, true⟩, ⟨cs!"73Ge", true, true, true, true⟩,
  ⟨cs!"74Ge", true, true, true, true⟩, ⟨cs!"74Se", true, true, true, true⟩, ⟨cs!"76Ge", true, true, true, true⟩,
  ⟨cs!"76Se", true, true, true, true⟩, ⟨cs!"77Se", true, true, true, true⟩, ⟨cs!"78Kr", false, false, true, true⟩,
  ⟨cs!"78Se", true, true, true, true⟩, ⟨cs!"79Br", true, true, true, true⟩, ⟨cs!"7Li", true, true, true, true⟩,
  ⟨cs!"80Kr", false, false, true, true⟩, ⟨cs!"80Se", true, true, true, true⟩, ⟨cs!"81Br", true, true, true, true⟩,
  ⟨cs!"82Kr", false, false, true, true⟩, ⟨cs!"82Se", true, true, true, true⟩, ⟨cs!"83Kr", false, false, false, true⟩,
  ⟨cs!"84Kr", false, false, true, true⟩, ⟨cs!"84Sr", true, true, true, true⟩, ⟨cs!"85Rb", true, true, true, true⟩,
  ⟨cs!"86Kr", true, true, true, true⟩, ⟨cs!"86Sr", true, true, true, true⟩, ⟨cs!"87Rb", true, true, true, true⟩,
  ⟨cs!"87Sr", true, true, true, true⟩, ⟨cs!"88Sr", true, true, true, true⟩, ⟨cs!"90Zr", true, true, true, true⟩,
  ⟨cs!"91Zr", true, true, true, true⟩, ⟨cs!"92Mo", true, true, true, true⟩, ⟨cs!"92Zr", true, true, true, true⟩,
  ⟨cs!"94Mo", true, true, true, true⟩, ⟨cs!"94Zr", true, true, true, true⟩, ⟨cs!"95Mo", true, true, true, true⟩,
  ⟨cs!"96Mo", true, true, true, true⟩, ⟨cs!"96Ru", false, false, true, true⟩, ⟨cs!"96Zr", true, true, true, true⟩,
  ⟨cs!"97Mo", true, true, true, true⟩, ⟨cs!"98Mo", true, true, true, true⟩, ⟨cs!"Ac", false, true, false, false⟩,
  ⟨cs!"Ag", true, true, true, true⟩, ⟨cs!"Al", true, true, true, true⟩, ⟨cs!"Am", true, true, true, true⟩,
  ⟨cs!"Ar", true, true, true, true⟩, ⟨cs!"As", true, true, true, true⟩, ⟨cs!"At", false, true, false, false⟩,
  ⟨cs!"Au", true, true, true, true⟩, ⟨cs!"B", true, true, true, true⟩, ⟨cs!"Ba", true, true, true, true⟩,
  ⟨cs!"Be", true, true, true, true⟩, ⟨cs!"Bi", true, true, true, true⟩, ⟨cs!"Br", true, true, true, true⟩,
  ⟨cs!"C", true, true, true, true⟩, ⟨cs!"Ca", true, true, true, true⟩, ⟨cs!"Cd", true, true, true, true⟩,
  ⟨cs!"Ce", true, true, true, true⟩, ⟨cs!"Cl", true, true, true, true⟩, ⟨cs!"Cm", false, true, false, false⟩,
  ⟨cs!"Co", true, true, true, true⟩, ⟨cs!"Cr", true, true, true, true⟩, ⟨cs!"Cs", true, true, true, true⟩,
  ⟨cs!"Cu", true, true, true, true⟩, ⟨cs!"Dy", true, true, true, true⟩, ⟨cs!"Er", true, true, true, true⟩,
  ⟨cs!"Eu", true, true, true, true⟩, ⟨cs!"F", true, true, true, true⟩, ⟨cs!"Fe", true, true, true, true⟩,
  ⟨cs!"Fr", false, true, false, false⟩, ⟨cs!"Ga", true, true, true, true⟩, ⟨cs!"Gd", true, true, true, true⟩,
  ⟨cs!"Ge", true, true, true, true⟩, ⟨cs!"H", true, true, true, true⟩, ⟨cs!"He", true, true, true, true⟩,
  ⟨cs!"Hf", true, true, true, true⟩, ⟨cs!"Hg", true, true, true, true⟩, ⟨cs!"Ho", true, true, true, true⟩,
  ⟨cs!"I", true, true, true, true⟩, ⟨cs!"In", true, true, true, true⟩, ⟨cs!"Ir", true, true, true, true⟩,
  ⟨cs!"K", true, true, true, true⟩, ⟨cs!"Kr", true, true, true, true⟩, ⟨cs!"La", true, true, true, true⟩,
  ⟨cs!"Li", true, true, true, true⟩, ⟨cs!"Lu", true, true, true, true⟩, ⟨cs!"Mg", true, true, true, true⟩,
  ⟨cs!"Mn", true, true, true, true⟩, ⟨cs!"Mo", true, true, true, true⟩, ⟨cs!"N", true, true, true, true⟩,
  ⟨cs!"Na", true, true, true, true⟩, ⟨cs!"Nb", true, true, true, true⟩, ⟨cs!"Nd", true, true, true, true⟩,
  ⟨cs!"Ne", true, true, true, true⟩, ⟨cs!"Ni", true, true, true, true⟩, ⟨cs!"Np", true, true, true, true⟩,
  ⟨cs!"O", true, true, true, true⟩, ⟨cs!"Os", true, true, true, true⟩, ⟨cs!"P", true, true, true, true⟩,
  ⟨cs!"Pa", true, true, true, true⟩, ⟨cs!"Pb", true, true, true, true⟩, ⟨cs!"Pd", true, true, true, true⟩,
  ⟨cs!"Pm", true, true, true, true⟩, ⟨cs!"Po", false, true, false, false⟩, ⟨cs!"Pr", true, true, true, true⟩,
  ⟨cs!"Pt", true, true, true, true⟩, ⟨cs!"Pu", false, false, false, false⟩, ⟨cs!"Ra", true, true, true, true⟩,
  ⟨cs!"Rb", true, true, true, true⟩, ⟨cs!"Re", true, true, true, true⟩, ⟨cs!"Rh", true, true, true, true⟩,
  ⟨cs!"Rn", false, true, false, false⟩, ⟨cs!"Ru", true, true, true, true⟩, ⟨cs!"S", true, true, true, true⟩,
  ⟨cs!"Sb", true, true, true, true⟩, ⟨cs!"Sc", true, true, true, true⟩, ⟨cs!"Se", true, true, true, true⟩,
  ⟨cs!"Si", true, true, true, true⟩, ⟨cs!"Sm", true, true, true, true⟩, ⟨cs!"Sn", true, true, true, true⟩,
  ⟨cs!"Sr", true, true, true, true⟩, ⟨cs!"Ta", true, true, true, true⟩, ⟨cs!"Tb", true, true, true, true⟩,
  ⟨cs!"Tc", true, true, true, true⟩, ⟨cs!"Te", true, true, true, true⟩, ⟨cs!"Th", true, true, true, true⟩,
  ⟨cs!"Ti", true, true, true, true⟩, ⟨cs!"Tl", true, true, true, true⟩, ⟨cs!"Tm", true, true, true, true⟩,
  ⟨cs!"U", true, true, true, true⟩, ⟨cs!"V", true, true, true, true⟩, ⟨cs!"W", true, true, true, true⟩,
  ⟨cs!"Xe", true, true, true, true⟩, ⟨cs!"Y", true, true, true, true⟩, ⟨cs!"Yb", true, true, true, true⟩,
  ⟨cs!"Zn", true, true, true, true⟩, ⟨cs!"Zr", true, true, true, true⟩]

end Verif.Structure.Ions
