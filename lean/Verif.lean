import Verif.Props.RingBuffer
import Verif.Props.Uart
import Verif.Props.I2c
import Verif.Props.Slip
import Verif.Props.Quantization
import Verif.Props.Clock
import Verif.Props.Power
import Verif.Props.SimTime
import Verif.Props.LinAlg
import Verif.Props.Quaternion
import Verif.Props.Quaternion2
import Verif.Props.Quaternion3
import Verif.Props.Lu
import Verif.Props.MonteCarlo
import Verif.Props.TimeSystem
import Verif.Props.Random
import Verif.Props.Sensor
import Verif.Props.Csv
import Verif.Props.Log
import Verif.Props.Ini
import Verif.Props.C2a
import Verif.Props.Wings
import Verif.Props.Gnss
import Verif.Props.Eps
import Verif.Props.HilsI2c
import Verif.Props.Heatload
import Verif.Props.Thermal
import Verif.Props.ViewFactor
import Verif.Props.Integrator
import Verif.Props.StepControl
import Verif.Props.Convergence
import Verif.Props.IntegratorExact
import Verif.Props.Interpolation
import Verif.Props.TrigInterpolation
import Verif.Props.InterpolationWindow
import Verif.Props.GnssSat
import Verif.Props.KeplerSolver
import Verif.Props.KeplerOrbit
import Verif.Props.OrbitalElements
import Verif.Props.OrbitRk4
import Verif.Props.OrbitEncke
import Verif.Props.Lvlh
import Verif.Props.Hill
import Verif.Props.RelativeOrbit
import Verif.Props.Geodetic
import Verif.Props.TimeSeriesOrbit
import Verif.Props.Disturbance
import Verif.Props.GravityGradient
import Verif.Props.ThirdBody
import Verif.Props.SurfaceForce
import Verif.Props.AirDrag
import Verif.Props.Celestial
import Verif.Props.Shadow
import Verif.Props.AttitudeRk4
import Verif.Props.AttitudeRk4b
import Verif.Props.ControlledAttitude
import Verif.Props.Cantilever
import Verif.Props.Cantilever2
import Verif.Props.ReactionWheel
import Verif.Props.ReactionWheel2
import Verif.Props.ReactionWheel3
import Verif.Props.WheelJitter
import Verif.Props.WheelJitter2
import Verif.Props.Magnetorquer
import Verif.Props.Thruster
import Verif.Props.RelativeInformation
import Verif.Props.GroundStation
import Verif.Props.Communication
import Verif.Props.GravityPotential
import Verif.Props.Geopotential
import Verif.Props.StarSensor
import Verif.Props.SunSensor
import Verif.Props.Hipparcos
import Verif.Props.Telescope
import Verif.Props.GnssReceiver
import Verif.Props.Atmosphere
import Verif.Props.HarrisPriester
import Verif.Props.AtmosphereState
import Verif.Props.Ideal
import Verif.Props.EarthRadiation
import Verif.Props.Sp3
import Verif.Props.Julian
import Verif.Props.CelestialRotation
import Verif.Props.Geomagnetic
import Verif.Props.InitOrbit
import Verif.Props.GaussianBeam
import Verif.Props.BiasSinex
import Verif.Props.Antex
import Verif.Props.AntexGrid
import Verif.Props.SpaceWeather
import Verif.Props.SpaceWeatherTable
import Verif.Props.InitAttitude
import Verif.Props.InitMonteCarlo
import Verif.Props.Tle
import Verif.Props.Sgp4History
import Verif.Props.Sgp4Report
import Verif.Props.Sgp4Codes
import Verif.Props.Sgp4Orbit
import Verif.Props.Sgp4Kepler
import Verif.Props.Sgp4Deep
import Verif.Props.Sgp4OrbitDeep
import Verif.Props.SerialExample
import Verif.Props.SerialHils
import Verif.Props.Structure
import Verif.Props.InitAocs
import Verif.Props.InitOthers
import Verif.Props.InitWheel
import Verif.Props.InitTime
import Verif.Props.InitDisturbance
import Verif.Props.InitThermal
import Verif.Props.InitGnss
import Verif.Props.HilsUart
import Verif.Props.InitGlobal
import Verif.Props.LogFiles
import Verif.Props.InitLocal
import Verif.Props.LogColumns
import Verif.Props.InitCase
import Verif.Props.SampleCase
import Verif.Props.SampleInterference
import Verif.Props.LogComponents
