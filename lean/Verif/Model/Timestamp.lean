import Verif.Model.SaveData

/-!
# Model of names and timestamps of simulations (`crowddynamics/simulation/base.py`)
-/

namespace CrowdDynamics

/-- A `datetime` with the time zone UTC, as it results from `datetime.now(tz=tzutc())`.
Source: crowddynamics/simulation/base.py:111-113 (`_default_timestamp`). -/
structure UtcTime where
  /-- `year` -/
  year : ℕ
  /-- `month` -/
  month : ℕ
  /-- `day` -/
  day : ℕ
  /-- `hour` -/
  hour : ℕ
  /-- `minute` -/
  minute : ℕ
  /-- `second` -/
  second : ℕ
  /-- `microsecond` -/
  microsecond : ℕ

/-- `'%0wd' % n` for a number with at most `w` digits.
Source: the call of `str` at crowddynamics/simulation/base.py:109. -/
def padded : ℕ → ℕ → Text
  | 0, _ => []
  | w + 1, n => padded w (n / 10) ++ [digitChar (n % 10)]

/-- `str(timestamp)`, that is `timestamp.isoformat(sep=' ')`: the microseconds are left out if they are
zero. Source: the calls of `str` at crowddynamics/simulation/base.py:109, 118. -/
def strUtc (t : UtcTime) : Text :=
  padded 4 t.year ++ '-' :: (padded 2 t.month ++ '-' :: (padded 2 t.day ++ ' ' ::
    (padded 2 t.hour ++ ':' :: (padded 2 t.minute ++ ':' :: (padded 2 t.second ++
      (if t.microsecond = 0 then "+00:00".toList
        else '.' :: (padded 6 t.microsecond ++ "+00:00".toList)))))))

/-- `d[key] = value` for an `OrderedDict`.
Source: crowddynamics/simulation/base.py:108-109. -/
def dictSet {V : Type} (d : Dict V) (key : Text) (value : V) : Dict V :=
  if d.any fun e => e.1 = key then d.map fun e => if e.1 = key then (key, value) else e
  else d ++ [(key, value)]

/-- The name of a new object: the given one, or the name of its class.
Source: crowddynamics/simulation/base.py:14-16 (`_default_name`). -/
def objectName (given : Option Text) (className : Text) : Text := given.getD className

/-- `metadata` of a new simulation; `given` are the metadata among the arguments of the constructor.
Source: crowddynamics/simulation/base.py:106-109 (`SimulationBase.__init__`). -/
def simulationMetadata (given : Dict Text) (name : Option Text) (className : Text) (time : UtcTime) :
    Dict Text :=
  dictSet (dictSet given "name".toList (objectName name className)) "timestamp".toList (strUtc time)

/-- The directory in which a new simulation is saved by default; `base` is
`os.path.abspath(base_directory)`.
Source: crowddynamics/simulation/base.py:115-118 and crowddynamics/simulation/logic.py:318-325. -/
def defaultDirectory (base : Text) (name : Option Text) (className : Text) (time : UtcTime) : Text :=
  saveFullPath base none (objectName name className) (strUtc time)

end CrowdDynamics
