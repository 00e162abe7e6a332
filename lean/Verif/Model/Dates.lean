import Verif.Model.IOCtx
import Verif.Model.Obj

/-! Date values: local time in Python, seconds since 1970 in the file. -/

namespace Avb.Dates

/-- The time zone of the machine, as `datetime.fromtimestamp` and `time.mktime` see it
(src/avb/ioctx.py:94-95, 287-288): the offset of local time from UTC at every moment, and the moment that
`mktime` gives for a local time.  A local time that occurs twice, when clocks go back, has two moments and
`mktime` gives one of them (it is not told which is meant); for one that is skipped, when clocks go forward,
it gives anything.  Times are whole seconds since the beginning of 1970, in UTC or on the local clock. -/
structure Zone where
  offset : Int → Int
  mktime : Int → Int
  mktime_shows : ∀ t, mktime (t + offset t) + offset (mktime (t + offset t)) = t + offset t

/-- A naive `datetime`: local clock in seconds, and microseconds (src/avb/trackgroups.py:1054,
src/avb/file.py:193).  Its `fold` is dropped, as `timetuple` does (src/avb/ioctx.py:95). -/
structure DateTime where
  seconds : Int
  micro : Nat
  deriving DecidableEq

/-- `datetime.fromtimestamp` of whole seconds (src/avb/ioctx.py:288). -/
def fromtimestamp (z : Zone) (t : Int) : DateTime := ⟨t + z.offset t, 0⟩

/-- `datetime_to_timestamp` (src/avb/ioctx.py:94-95). -/
def datetime_to_timestamp (z : Zone) (d : DateTime) : Int := z.mktime d.seconds

/-- `read_datetime` (src/avb/ioctx.py:287-288). -/
def readDatetime (z : Zone) (bo : BO) : Rd DateTime := do
  let t ← rInt bo .u32
  return fromtimestamp z t

/-- `write_datetime` (src/avb/ioctx.py:290-291). -/
def writeDatetime (z : Zone) (bo : BO) (d : DateTime) : Wr Unit :=
  wInt bo .u32 (datetime_to_timestamp z d)

/-- The timestamp saved for a date that was loaded with timestamp `t` (src/avb/ioctx.py:287-291). -/
def resaved (z : Zone) (t : Int) : Int := datetime_to_timestamp z (fromtimestamp z t)

/-- An object of `Model/Obj`, where dates are timestamps, as it is saved after it was loaded: mobs are the
only objects with dates (src/avb/trackgroups.py:1066, 1076, 1094, 1104). -/
def redated (z : Zone) : Obj → Obj
  | .CMPO x => .CMPO { x with
      last_modified := resaved z x.last_modified
      creation_time := x.creation_time.map (resaved z) }
  | o => o

end Avb.Dates
