import Verif.Model.Schema.Sicd121
import Verif.Model.Schema.Sicd130
import Verif.Model.Schema.SiCommon01
import Verif.Model.Schema.SiCommon10
import Verif.Model.Schema.Sfa
import Verif.Model.Schema.Sidd100
import Verif.Model.Schema.Sidd200
import Verif.Model.Schema.Sidd300

/-!
# The dataclasses that are imported
-/

namespace Verif.Schema

/-- The dataclasses that xsdata finds: those of the modules that `sicd_sensor_model_builder.py` L9-10 and `sidd_sensor_model_builder.py` L8-10 import, which are imported with the package. -/
def all : Verif.Xsdata.Schema :=
  Sicd121.classes ++ Sicd130.classes ++ SiCommon01.classes ++ SiCommon10.classes ++ Sfa.classes ++ Sidd100.classes ++ Sidd200.classes ++ Sidd300.classes

end Verif.Schema
