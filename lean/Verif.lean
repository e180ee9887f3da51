import Verif.Lemmas.Calendar
import Verif.Lemmas.Covariance
import Verif.Lemmas.Digits
import Verif.Lemmas.Seek
import Verif.Lemmas.Split
import Verif.Model.Acfr
import Verif.Model.AcfrLaser
import Verif.Model.Ae2000
import Verif.Model.AlrTime
import Verif.Model.Arcball
import Verif.Model.Attenuation
import Verif.Model.AttnPlots
import Verif.Model.BagImages
import Verif.Model.BagLoad
import Verif.Model.Basic
import Verif.Model.BioClock
import Verif.Model.Biocam
import Verif.Model.BrightImages
import Verif.Model.CalCrash
import Verif.Model.CalFiles
import Verif.Model.CalImages
import Verif.Model.CalText
import Verif.Model.Calib
import Verif.Model.CameraCal
import Verif.Model.CameraFiles
import Verif.Model.CameraSize
import Verif.Model.CameraSystem
import Verif.Model.CameraYaml
import Verif.Model.Cameras
import Verif.Model.CellMatrix
import Verif.Model.Clocks
import Verif.Model.CollectCorners
import Verif.Model.ColourRun
import Verif.Model.Commands
import Verif.Model.Cone
import Verif.Model.ConfLog
import Verif.Model.Config
import Verif.Model.Convert
import Verif.Model.CornerOrder
import Verif.Model.Correct
import Verif.Model.CorrectCommand
import Verif.Model.CorrectHistory
import Verif.Model.CorrectYaml
import Verif.Model.CsvFiles
import Verif.Model.CsvLoad
import Verif.Model.DeadReckoning
import Verif.Model.DebayerFolder
import Verif.Model.DivePlaces
import Verif.Model.DrRun
import Verif.Model.Ekf
import Verif.Model.EkfPose
import Verif.Model.EkfStart
import Verif.Model.FilterPlots
import Verif.Model.Folders
import Verif.Model.GapsFiles
import Verif.Model.Gopro
import Verif.Model.Graph
import Verif.Model.Hybis
import Verif.Model.HybisRun
import Verif.Model.ImageParsers
import Verif.Model.Images
import Verif.Model.Interpolate
import Verif.Model.Koyo20
import Verif.Model.KoyoClean
import Verif.Model.KoyoFiles
import Verif.Model.KoyoRun
import Verif.Model.Laser
import Verif.Model.LaserClouds
import Verif.Model.LaserPairs
import Verif.Model.LaserRun
import Verif.Model.LaserUncert
import Verif.Model.LaserYaml
import Verif.Model.LogFiles
import Verif.Model.Merge
import Verif.Model.MergeRun
import Verif.Model.MrtRun
import Verif.Model.NavChoice
import Verif.Model.NavExport
import Verif.Model.NavFile
import Verif.Model.NavHistory
import Verif.Model.NavStats
import Verif.Model.NocLogs
import Verif.Model.Numerical
import Verif.Model.Offset
import Verif.Model.Outputs
import Verif.Model.Parse
import Verif.Model.ParsePlots
import Verif.Model.ParseTasks
import Verif.Model.Parsers
import Verif.Model.Particle
import Verif.Model.ParticleRun
import Verif.Model.PathPlots
import Verif.Model.PathTree
import Verif.Model.Payload
import Verif.Model.Phins
import Verif.Model.PixelStats
import Verif.Model.ProcessImage
import Verif.Model.ProcessRun
import Verif.Model.Projections
import Verif.Model.Quaternion
import Verif.Model.RawExport
import Verif.Model.RdiLog
import Verif.Model.RelativePose
import Verif.Model.RescaleCommand
import Verif.Model.RescaleYaml
import Verif.Model.Rotation
import Verif.Model.SensorFrom
import Verif.Model.SensorJson
import Verif.Model.SensorTables
import Verif.Model.SensorText
import Verif.Model.Sonardyne
import Verif.Model.StereoFound
import Verif.Model.StereoRun
import Verif.Model.Sync
import Verif.Model.TempFiles
import Verif.Model.TideRun
import Verif.Model.Time
import Verif.Model.TimePlots
import Verif.Model.Transforms
import Verif.Model.Usbl
import Verif.Model.UsblCsv
import Verif.Model.UsblRos
import Verif.Model.VehicleLogs
import Verif.Model.VirtualLaser
import Verif.Props.Acfr
import Verif.Props.AcfrLaser
import Verif.Props.Ae2000
import Verif.Props.AlrTime
import Verif.Props.Arcball
import Verif.Props.Attenuation
import Verif.Props.AttnPlots
import Verif.Props.BagImages
import Verif.Props.BagLoad
import Verif.Props.BioClock
import Verif.Props.Biocam
import Verif.Props.BrightImages
import Verif.Props.Brightness
import Verif.Props.CalCrash
import Verif.Props.CalFiles
import Verif.Props.CalImages
import Verif.Props.CalText
import Verif.Props.Calib
import Verif.Props.CameraCal
import Verif.Props.CameraFiles
import Verif.Props.CameraSize
import Verif.Props.CameraSystem
import Verif.Props.CameraYaml
import Verif.Props.Cameras
import Verif.Props.CellMatrix
import Verif.Props.Clocks
import Verif.Props.CollectCorners
import Verif.Props.ColourRun
import Verif.Props.Commands
import Verif.Props.Cone
import Verif.Props.ConfLog
import Verif.Props.Config
import Verif.Props.Convert
import Verif.Props.CornerOrder
import Verif.Props.Correct
import Verif.Props.CorrectCommand
import Verif.Props.CorrectHistory
import Verif.Props.CorrectYaml
import Verif.Props.CsvFiles
import Verif.Props.CsvLoad
import Verif.Props.DeadReckoning
import Verif.Props.DebayerFolder
import Verif.Props.DivePart
import Verif.Props.DivePlaces
import Verif.Props.DrRun
import Verif.Props.EkfCamera
import Verif.Props.EkfCov
import Verif.Props.EkfMeas
import Verif.Props.EkfMotion
import Verif.Props.EkfPose
import Verif.Props.EkfRun
import Verif.Props.EkfSmooth
import Verif.Props.EkfStart
import Verif.Props.EkfUpdate
import Verif.Props.FilterPlots
import Verif.Props.Folders
import Verif.Props.GapsFiles
import Verif.Props.GapsTime
import Verif.Props.Gopro
import Verif.Props.Graph
import Verif.Props.Hybis
import Verif.Props.HybisRun
import Verif.Props.ImageParsers
import Verif.Props.Images
import Verif.Props.Interpolate
import Verif.Props.Koyo20
import Verif.Props.KoyoClean
import Verif.Props.KoyoFiles
import Verif.Props.KoyoRun
import Verif.Props.Laser
import Verif.Props.LaserClouds
import Verif.Props.LaserPairs
import Verif.Props.LaserPlane
import Verif.Props.LaserRun
import Verif.Props.LaserUncert
import Verif.Props.LaserYaml
import Verif.Props.LogFiles
import Verif.Props.Merge
import Verif.Props.MergeRun
import Verif.Props.MovedDive
import Verif.Props.MovedParticles
import Verif.Props.MrtRun
import Verif.Props.NavChoice
import Verif.Props.NavExport
import Verif.Props.NavFile
import Verif.Props.NavHistory
import Verif.Props.NavStats
import Verif.Props.NocLogs
import Verif.Props.Numerical
import Verif.Props.Offset
import Verif.Props.Outputs
import Verif.Props.Parse
import Verif.Props.ParsePlots
import Verif.Props.ParseTasks
import Verif.Props.ParserMachines
import Verif.Props.Parsers
import Verif.Props.Particle
import Verif.Props.ParticleRun
import Verif.Props.PathPlots
import Verif.Props.PathTree
import Verif.Props.Payload
import Verif.Props.Phins
import Verif.Props.PixelStats
import Verif.Props.Pool
import Verif.Props.ProcessImage
import Verif.Props.ProcessRun
import Verif.Props.Projections
import Verif.Props.Quaternion
import Verif.Props.RawExport
import Verif.Props.RdiLog
import Verif.Props.RelativePose
import Verif.Props.RescaleCommand
import Verif.Props.RescaleYaml
import Verif.Props.Rotation
import Verif.Props.SensorFrom
import Verif.Props.SensorJson
import Verif.Props.SensorList
import Verif.Props.SensorTables
import Verif.Props.SensorText
import Verif.Props.ShiftedFilter
import Verif.Props.SmoothRun
import Verif.Props.Sonardyne
import Verif.Props.StereoFound
import Verif.Props.StereoRun
import Verif.Props.StraightRun
import Verif.Props.Sync
import Verif.Props.TempFiles
import Verif.Props.TideRun
import Verif.Props.Time
import Verif.Props.TimePlots
import Verif.Props.Transforms
import Verif.Props.TurnRate
import Verif.Props.Usbl
import Verif.Props.UsblCsv
import Verif.Props.UsblMove
import Verif.Props.UsblRos
import Verif.Props.VehicleLogs
import Verif.Props.VirtualLaser
import Verif.Spec.AcfrLaser
import Verif.Spec.Ae2000
import Verif.Spec.AlrTime
import Verif.Spec.Arcball
import Verif.Spec.Attenuation
import Verif.Spec.AttnPlots
import Verif.Spec.BagImages
import Verif.Spec.BagLoad
import Verif.Spec.BioClock
import Verif.Spec.Biocam
import Verif.Spec.BrightImages
import Verif.Spec.Brightness
import Verif.Spec.CalCrash
import Verif.Spec.CalImages
import Verif.Spec.CalText
import Verif.Spec.Calendar
import Verif.Spec.Calib
import Verif.Spec.CameraFiles
import Verif.Spec.CameraYaml
import Verif.Spec.CellMatrix
import Verif.Spec.Clocks
import Verif.Spec.CollectCorners
import Verif.Spec.ColourRun
import Verif.Spec.Commands
import Verif.Spec.Cone
import Verif.Spec.ConfLog
import Verif.Spec.Config
import Verif.Spec.Convert
import Verif.Spec.CornerOrder
import Verif.Spec.Correct
import Verif.Spec.CorrectHistory
import Verif.Spec.CorrectYaml
import Verif.Spec.Covariance
import Verif.Spec.DebayerFolder
import Verif.Spec.DivePart
import Verif.Spec.DivePlaces
import Verif.Spec.DrRun
import Verif.Spec.EkfEvents
import Verif.Spec.EkfMeas
import Verif.Spec.EkfPose
import Verif.Spec.EkfStart
import Verif.Spec.EkfUpdate
import Verif.Spec.Exposure
import Verif.Spec.FilterPlots
import Verif.Spec.Folders
import Verif.Spec.GapsFiles
import Verif.Spec.Geometry
import Verif.Spec.Gopro
import Verif.Spec.Graph
import Verif.Spec.Hybis
import Verif.Spec.HybisRun
import Verif.Spec.ImageLists
import Verif.Spec.Images
import Verif.Spec.Koyo
import Verif.Spec.KoyoClean
import Verif.Spec.KoyoFiles
import Verif.Spec.KoyoRun
import Verif.Spec.Laser
import Verif.Spec.LaserClouds
import Verif.Spec.LaserRun
import Verif.Spec.LaserUncert
import Verif.Spec.LaserYaml
import Verif.Spec.Lines
import Verif.Spec.LogFiles
import Verif.Spec.Logs
import Verif.Spec.Merge
import Verif.Spec.Motion
import Verif.Spec.MovedDive
import Verif.Spec.MovedParticles
import Verif.Spec.MrtRun
import Verif.Spec.NavChoice
import Verif.Spec.NavExport
import Verif.Spec.NavHistory
import Verif.Spec.NavStats
import Verif.Spec.NocLogs
import Verif.Spec.Numerical
import Verif.Spec.ParsePlots
import Verif.Spec.ParseTasks
import Verif.Spec.ParticleRun
import Verif.Spec.PathPlots
import Verif.Spec.PathTree
import Verif.Spec.Payload
import Verif.Spec.Phins
import Verif.Spec.PixelStats
import Verif.Spec.ProcessImage
import Verif.Spec.ProcessRun
import Verif.Spec.Projections
import Verif.Spec.Quaternion
import Verif.Spec.RawExport
import Verif.Spec.RdiLog
import Verif.Spec.RelativePose
import Verif.Spec.RescaleCommand
import Verif.Spec.RescaleYaml
import Verif.Spec.SensorTables
import Verif.Spec.SensorText
import Verif.Spec.Sensors
import Verif.Spec.ShiftedFilter
import Verif.Spec.SmoothRun
import Verif.Spec.Sonardyne
import Verif.Spec.StereoFound
import Verif.Spec.StereoRun
import Verif.Spec.StraightRun
import Verif.Spec.Sync
import Verif.Spec.TempFiles
import Verif.Spec.Tide
import Verif.Spec.TimePlots
import Verif.Spec.Transforms
import Verif.Spec.TurnRate
import Verif.Spec.UsblCsv
import Verif.Spec.UsblMove
import Verif.Spec.UsblRos
import Verif.Spec.VehicleLogs
import Verif.Spec.VirtualLaser
