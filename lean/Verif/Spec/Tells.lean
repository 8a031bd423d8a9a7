import Verif.Spec.Influence
import Verif.Spec.Batch
set_option autoImplicit false
/- What can be told from the stored records about what was sent. Independent of the code. -/
namespace Egts
variable [P : Platform]

/-- what a device tells about a place: where it is, with the hemispheres (`LAHS`, `LOHS`), how fast it goes, and when -/
def sentPlace (d : SrPosData) : (F64 × F64 × UInt16 × Int) × Bytes × Bytes := (placeOf d, d.LAHS, d.LOHS)

/-- what a device tells about a liquid level: sensor, module, error flag, unit, and the level if the unit is known (00, 01, 10) -/
def sentLevel (d : SrLiquidLevelSensor) : UInt8 × UInt16 × Bytes × Bytes × Option UInt32 :=
  (d.LiquidLevelSensorNumber, d.ModuleAddress, d.LiquidLevelSensorErrorFlag, d.LiquidLevelSensorValueUnit,
    if d.LiquidLevelSensorValueUnit ∈ [[48, 48], [48, 49], [49, 48]] then some d.LiquidLevelSensorData else none)

/-- a place in the north-east -/
def NorthEast (d : SrPosData) : Prop := d.LAHS = [48] ∧ d.LOHS = [48]

end Egts
