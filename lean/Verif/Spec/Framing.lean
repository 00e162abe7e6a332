import Verif.Model.Obj

/-
The block structure of chunks.
-/

namespace Avb

/-- The data of an object consist of blocks, one for each class in its inheritance chain (two for a
transition).  A block starts with 2 and a version; these are the versions, taken from the
`read_assert_tag` calls in the `read` methods. -/
def Cls.blocks : Cls → List (List UInt8)
  | .ATTR => [[1]]
  | .PRLS => [[1]]
  | .TMCS => [[1]]
  | .BVst => [[6], [10]]
  | .ABIN => [[14, 15]]
  | .BINF => [[14, 15], [1]]
  | .SEQU => [[3], [3]]
  | .SCLP => [[3], [1], [3]]
  | .TCCP => [[3], [1], [1]]
  | .ECCP => [[3], [1], [1]]
  | .TRKR => [[3], [1], [1]]
  | .PRCL => [[3], [1], [1]]
  | .CTRL => [[3], [1], [3]]
  | .FILL => [[3], [1], [1]]
  | .TRKG => [[3], [8]]
  | .TKFX => [[3], [8], [6]]
  | .PVOL => [[3], [8], [6], [5]]
  | .ASPI => [[3], [8], [6], [1]]
  | .EQMB => [[3], [8], [6], [5]]
  | .MASK => [[3], [8], [2], [1]]
  | .STRB => [[3], [8], [2], [1]]
  | .SPED => [[3], [8], [2], [3]]
  | .REPT => [[3], [8], [2], [1]]
  | .RSET => [[3], [8], [1]]
  | .TNFX => [[3], [8], [1], [5]]
  | .SLCT => [[3], [8], [1]]
  | .CMPO => [[3], [8], [2]]
  | .FILE => [[2]]
  | .WINF => [[2]]
  | .URLL => []
  | .GRFX => [[1]]
  | .SHLP => [[1]]
  | .CCFX => [[1]]
  | .FXPS => [[18]]
  | .AVUP => [[1]]
  | .PRIT => [[2]]
  | .MSML => [[2]]
  | .APOS => [[1]]
  | .ABOB => [[1], [1]]
  | .DIDP => [[1], [1], [1]]
  | .MPGP => [[1], [1], [1], [1]]
  | .MCBR => [[1]]
  | .MCMR => [[1]]
  | .TMBC => [[1], [3]]
  | .TKMN => [[1]]
  | .TKDS => [[1]]
  | .TKPS => [[1]]
  | .TKDA => [[1]]
  | .TKPA => [[1]]
  | .MDES => [[3]]
  | .MDTP => [[3], [2]]
  | .MDFM => [[3], [1]]
  | .MDNG => [[3], [1]]
  | .MDFL => [[3], [3]]
  | .MULD => [[3], [3], [1]]
  | .WAVE => [[3], [3], [1]]
  | .AIFC => [[3], [3], [1]]
  | .PCMA => [[3], [3], [1]]
  | .MPGA => [[3], [3], [1]]
  | .DIDD => [[3], [3], [2]]
  | .CDCI => [[3], [3], [2], [2]]
  | .MPGI => [[3], [3], [2], [2], [1]]
  | .JPED => [[3], [3], [2], [2], [1]]
  | .RGBA => [[3], [3], [2], [1]]
  | .DATD => [[3], [3], [1]]
  | .ANCD => [[3], [3], [1], [1]]

/-- The bytes are made of blocks, one for each item of the list: 2, one of the versions, and anything. -/
def Blocks : List (List UInt8) → Bytes → Prop
  | [], p => p = []
  | vs :: b, p => ∃ v ∈ vs, ∃ seg q, p = 2 :: v :: (seg ++ q) ∧ Blocks b q

end Avb
