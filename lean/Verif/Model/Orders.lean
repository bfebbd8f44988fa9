import Verif.Model.SiemDataset
import Verif.Model.DatasetWire
/- The derived orders (`Ord`) of the enumerations of commands, tasks and notification levels. Those of dataset types, datasets and languages
are in `Model/DatasetType`, `Model/SiemDataset` and `Model/Language`. A derived order compares the position of the variant in the source
first, and then its payload. -/
namespace USiem

/-- The position of the variant of `SiemFunctionType`, src/components/command.rs lines 19-44. -/
def SiemFunctionType.rank : SiemFunctionType → Nat
  | .STOP_COMPONENT => 0
  | .START_COMPONENT => 1
  | .LOG_QUERY => 2
  | .ISOLATE_IP => 3
  | .ISOLATE_ENDPOINT => 4
  | .FILTER_IP => 5
  | .FILTER_DOMAIN => 6
  | .FILTER_EMAIL_SENDER => 7
  | .LIST_USE_CASES => 8
  | .GET_USE_CASE => 9
  | .LIST_RULES => 10
  | .GET_RULE => 11
  | .LIST_TASKS => 12
  | .LIST_DATASETS => 13
  | .DOWNLOAD_QUERY => 14
  | .LOGIN_USER => 15
  | .LIST_PARSERS => 16
  | .START_TASK => 17
  | .GET_TASK_RESULT => 18
  | .OTHER _ => 19

/-- The payload of the variant of `SiemFunctionType`, src/components/command.rs line 43. -/
def SiemFunctionType.payload : SiemFunctionType → Str
  | .OTHER name => name
  | _ => []

/-- The derived `Ord` of `SiemFunctionType`, src/components/command.rs line 19. -/
instance : Ord SiemFunctionType := ⟨compareLex (compareOn SiemFunctionType.rank) (compareOn SiemFunctionType.payload)⟩

/-- The position of the variant of `SiemTaskType`, src/components/task.rs lines 196-211. -/
def SiemTaskType.rank : SiemTaskType → Nat
  | .EXECUTE_ENDPOINT_SCRIPT => 0
  | .REMEDIATE_EMAILS => 1
  | .REPORT_ABUSE => 2
  | .UPDATE_GEOIP => 3
  | .UPDATE_CLOUD_PROVIDER => 4
  | .OTHER _ => 5

/-- The payload of the variant of `SiemTaskType`, src/components/task.rs line 210. -/
def SiemTaskType.payload : SiemTaskType → Str
  | .OTHER name => name
  | _ => []

/-- The derived `Ord` of `SiemTaskType`, src/components/task.rs line 196. -/
instance : Ord SiemTaskType := ⟨compareLex (compareOn SiemTaskType.rank) (compareOn SiemTaskType.payload)⟩

/-- The derived `Ord` of `NotificationLevel`, src/components/common.rs line 41. -/
instance : Ord NotificationLevel := ⟨compareOn NotificationLevel.toNat⟩

end USiem
