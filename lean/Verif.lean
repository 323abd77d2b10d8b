import Verif.Model.Basic
import Verif.Model.Float
import Verif.Model.Hamming
import Verif.Model.Camera
import Verif.Model.Calib
import Verif.Model.Eeprom640
import Verif.Model.Eeprom641
import Verif.Model.Calc
import Verif.Model.Bus
import Verif.Model.Driver
import Verif.Spec.Bus
import Verif.Spec.Real
import Verif.Props.Hamming
import Verif.Props.Register
import Verif.Props.Camera
import Verif.Props.Calc
import Verif.Props.Numeric
import Verif.Props.Driver
import Verif.Props.Image
import Verif.Props.Sync
import Verif.Props.History
import Verif.Props.Static
import Verif.Props.Stale
import Verif.Props.Recorder
import Verif.Props.Eeprom640
import Verif.Props.Eeprom641
import Verif.Props.Failures
import Verif.Props.Builds
import Verif.Props.Flags
import Verif.Props.Table
import Verif.Props.Thermometer
import Verif.Props.Access
import Verif.Props.Session
import Verif.Props.Watch
import Verif.Props.WatchNear
import Verif.Props.Exact
import Verif.Props.Accuracy
import Verif.Props.Signal
import Verif.Props.Direct
import Verif.Props.Geometry
import Verif.Props.Temperature
import Verif.Props.Nearness
import Verif.Props.WriteMask
import Verif.Props.Order
import Verif.Props.Mock
import Verif.Props.Shared
import Verif.Props.Traffic
import Verif.Props.Address
import Verif.Props.Restart
import Verif.Props.Scene
import Verif.Props.Examples
import Verif.Props.Law
import Verif.Props.LawNear
import Verif.Props.Locality
import Verif.Props.Usual
import Verif.Props.Interference
import Verif.Props.Heard
import Verif.Props.HeardNear
import Verif.Props.Noise
import Verif.Props.Replay
import Verif.Props.Drift
import Verif.Props.Difference
import Verif.Props.Hold
import Verif.Props.Flagged
import Verif.Props.Counted
import Verif.Props.Libraries
import Verif.Props.Scene641
import Verif.Props.Witness641
import Verif.Props.Witness
import Verif.Props.Retry
import Verif.Spec.Ranges
import Verif.Props.Ranges
import Verif.Spec.Broken
import Verif.Spec.Special
import Verif.Props.Broken
import Verif.Props.Silent
import Verif.Props.SilentWitness
import Verif.Spec.Cold
import Verif.Props.Cold
import Verif.Props.ColdWitness
import Verif.Props.Limits
import Verif.Props.QuickStart
import Verif.Props.Brighter
import Verif.Props.Effects
