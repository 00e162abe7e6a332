import Verif.Model.Work

/-! New files and the constructors used for them. -/

namespace Avb.Work

/-- The columns of a new bin view (src/avb/bin.py:55-73). -/
def default_bin_columns : List BinColumn := [
  ⟨['C', 'o', 'l', 'o', 'r'], 105, 51, false⟩,
  ⟨[' ', ' ', ' '], 0, 200, false⟩,
  ⟨['N', 'a', 'm', 'e'], 20, 201, false⟩,
  ⟨['C', 'r', 'e', 'a', 't', 'i', 'o', 'n', ' ', 'D', 'a', 't', 'e'], 102, 12, false⟩,
  ⟨['D', 'u', 'r', 'a', 't', 'i', 'o', 'n'], 100, 4, false⟩,
  ⟨['D', 'r', 'i', 'v', 'e'], 2, 14, false⟩,
  ⟨['I', 'N', '-', 'O', 'U', 'T'], 100, 7, false⟩,
  ⟨['M', 'a', 'r', 'k', ' ', 'I', 'N'], 100, 5, false⟩,
  ⟨['M', 'a', 'r', 'k', ' ', 'O', 'U', 'T'], 100, 6, false⟩,
  ⟨['T', 'r', 'a', 'c', 'k', 's'], 2, 1, false⟩,
  ⟨['S', 't', 'a', 'r', 't'], 100, 2, false⟩,
  ⟨['T', 'a', 'p', 'e'], 2, 8, false⟩,
  ⟨['V', 'i', 'd', 'e', 'o'], 2, 13, false⟩,
  ⟨['P', 'l', 'u', 'g', '-', 'i', 'n'], 2, 133, false⟩,
  ⟨['T', 'a', 'p', 'e', 'I', 'D'], 2, 50, false⟩,
  ⟨['A', 'u', 'd', 'i', 'o', ' ', 'S', 'R'], 2, 11, false⟩,
  ⟨['C', 'o', 'm', 'm', 'e', 'n', 't', 's'], 2, 40, false⟩]

/-- A bin view after `BinViewSetting.__init__` (src/avb/bin.py:15-23, 83-90; defaults set by
src/avb/core.py:178-182).  The column dictionaries are shared with the defaults in Python, here they are
values. -/
def newView (attributes : Ref) : BinViewSetting where
  name := ['U', 'n', 't', 'i', 't', 'l', 'e', 'd']
  kind := ['B', 'i', 'n', ' ', 'V', 'i', 'e', 'w']
  attr_count := 1
  attr_type := 20
  attributes := attributes
  columns := default_bin_columns
  format_descriptors := some []

/-- A sift setting after `__init__` (src/avb/bin.py:188-196). -/
def newSift : SiftItem := ⟨1, [], ['A', 'n', 'y']⟩

/-- A bin after `Bin.__init__` (src/avb/bin.py:198-235; defaults set by src/avb/core.py:178-182); `uid` is
what `generate_uid` gave (src/avb/utils.py:96-98). -/
def newBin (uid : Int) (view_setting attributes : Ref) : Bin where
  large_bin := false
  view_setting := view_setting
  uid := uid
  items := []
  display_mask := 98999
  display_mode := 0
  sifted := false
  sifted_settings := List.replicate 6 newSift
  sort_columns := []
  mac_font := 1
  mac_font_size := 11
  mac_image_scale := 5
  home_rect := ⟨0, 0, 300, 600⟩
  background_color := ⟨45568, 45568, 45568⟩
  forground_color := ⟨3328, 3328, 3328⟩
  ql_image_scale := 6
  attributes := attributes
  was_iconic := false

/-- `create.Bin()` (src/avb/file.py:67-85, src/avb/bin.py:83-90, 221-235): ids are given in the order in
which the constructors are entered, the bin first.  The objects are shown as they are when the constructor
has returned. -/
def createBin (s : St) (uid : Int) : St :=
  let s1 := create s (.ABIN (newBin uid (s.next + 2) (s.next + 4)))
  let s2 := create s1 (.BVst (newView (s.next + 3)))
  let s3 := create s2 (.ATTR ⟨[]⟩)
  create s3 (.ATTR ⟨[]⟩)

/-- What `AVBFile()` has of a file (src/avb/file.py:105-122, 184-190): nothing.  A lookup that is not in the
cache raises (`AttributeError`; here the exception of a number out of range). -/
def emptyFile : AvbFile where
  bo := .little
  header := { num_objects := 0, root_index := 0, last_save := 0, creator_version := [] }
  positions := []
  data := []
  headerEnd := 0

/-- `AVBFile()` (src/avb/file.py:103-122, 184-190): the content is object 1. -/
def setupEmpty (uid : Int) (o : Obj) : St := createBin (start emptyFile o) uid

/-- A bin item after `__init__` and the assignment of its mob (src/avb/bin.py:172-181, 382-384). -/
def newItem (mob : Ref) : BinItem := ⟨mob, -30000, -30000, 0, true⟩

/-- A new mob is made and added to the bin at location `l`: `create.Composition` (src/avb/file.py:67-85,
src/avb/trackgroups.py:1038-1056, src/avb/components.py:32-36), with content `m` when the constructors have
returned, and `add_mob` (src/avb/bin.py:381-389; the dictionary of mobs is in `Verif.Model.BinFind`).
`add_mob` does not report the change; here it is an `edit`, which is the same for a bin that was made or
changed before. -/
def addMob (s : St) (l : Nat) (m : Composition) : St :=
  let s1 := create s (.CMPO m)
  let s2 := create s1 (.ATTR ⟨[]⟩)
  match (s2.objs l).2 with
  | .ABIN b => edit s2 l (.ABIN { b with items := b.items ++ [newItem (s.next + 1)] })
  | _ => s2

end Avb.Work
