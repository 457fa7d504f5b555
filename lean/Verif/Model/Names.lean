/-!
# Model of the constants of melodist/__init__.py
-/

namespace Melodist

/-- melodist/__init__.py:34-43 `melodist.columns_daily` -/
def packageColumnsDaily : List String := ["tmean", "tmin", "tmax", "precip", "glob", "ssd", "hum", "wind"]

/-- melodist/__init__.py:45-51 `melodist.columns_hourly` -/
def packageColumnsHourly : List String := ["temp", "precip", "glob", "hum", "wind"]

/-- melodist/__init__.py:54-68 the attributes of `melodist.Options` with their values -/
def optionNames : List (String × String) :=
  [("TEMP_SINE_CURVE", "sine"), ("TEMP_LINEAR", "linear"), ("EQUAL_DISTRIBUTION", "equal"), ("PREC_CASCADE", "cascade"),
    ("PREC_MASTER_STATION", "masterstation"), ("HUMIDITY_MINIMAL", "minimal"), ("HUMIDITY_DEWPOINT_REGRESSION", "dewpoint_regression"),
    ("HUMIDITY_MIN_MAX", "min_max"), ("HUMIDITY_LINEAR_DEWPOINT_VARIATION", "linear_dewpoint_variation"), ("WIND_FITTED_COSINE", "cosine"),
    ("WIND_RANDOM_EXPONENTIAL", "random"), ("POT_RAD", "pot_rad"), ("POT_RAD_VIA_SSD", "pot_rad_via_ssd"), ("POT_RAD_VIA_BC", "pot_rad_via_bc")]

end Melodist
