import Verif.Model.Py
/-
The files sensor_data/HIRS/coeffs/coef_chN.dat, N = 1..19, as lists of lines split at white space (generated from the files; nothing left out).
-/
set_option autoImplicit false
namespace Verif

/-- sensor_data/HIRS/coeffs/coef_ch1.dat -/
def coefCh1 : List (List String) :=
  [["sensor", "fstar", "alpha", "beta", "Δfstar", "Δalpha", "Δbeta"],
   ["ma", "2.006e+13", "0.01592", "0.999952", "4.353e+09", "1.1306e-06", "0.0000e+00"],
   ["mb", "2.007e+13", "0.01746", "0.999947", "4.327e+09", "1.5851e-06", "0.0000e+00"],
   ["n06", "2.004e+13", "0.02461", "0.999920", "1.976e+10", "2.9609e-05", "0.0000e+00"],
   ["n07", "2.004e+13", "0.02160", "0.999931", "1.969e+10", "3.1404e-06", "5.9605e-08"],
   ["n08", "2.001e+13", "0.03630", "0.999876", "2.020e+10", "9.7003e-05", "2.3842e-07"],
   ["n09", "2.003e+13", "0.02710", "0.999910", "1.964e+10", "5.1111e-05", "5.9605e-08"],
   ["n10", "2.003e+13", "0.02661", "0.999912", "1.983e+10", "6.2915e-05", "1.7881e-07"],
   ["n11", "2.007e+13", "0.03065", "0.999898", "2.153e+10", "1.0032e-03", "3.6359e-06"],
   ["n12", "2.003e+13", "0.02877", "0.999904", "1.966e+10", "9.3032e-05", "2.3842e-07"],
   ["n14", "2.007e+13", "0.01921", "0.999940", "1.978e+10", "3.2632e-05", "5.9605e-08"],
   ["n15", "2.007e+13", "0.01690", "0.999949", "4.357e+09", "4.3418e-06", "0.0000e+00"],
   ["n16", "2.010e+13", "0.01653", "0.999950", "4.498e+09", "1.6585e-05", "5.9605e-08"],
   ["n17", "2.007e+13", "0.01725", "0.999947", "4.337e+09", "5.9605e-07", "0.0000e+00"],
   ["n18", "2.005e+13", "0.01514", "0.999955", "4.344e+09", "1.0030e-06", "0.0000e+00"],
   ["n19", "2.008e+13", "0.01519", "0.999955", "4.355e+09", "1.5730e-06", "0.0000e+00"],
   ["tn", "2.011e+13", "-0.09875", "1.000379", "1.960e+10", "1.2559e-03", "5.0068e-06"]]

/-- sensor_data/HIRS/coeffs/coef_ch2.dat -/
def coefCh2 : List (List String) :=
  [["sensor", "fstar", "alpha", "beta", "Δfstar", "Δalpha", "Δbeta"],
   ["ma", "2.038e+13", "0.02591", "0.999917", "2.037e+10", "3.3330e-05", "5.9605e-08"],
   ["mb", "2.038e+13", "0.03506", "0.999883", "2.020e+10", "1.4391e-05", "1.7881e-07"],
   ["n06", "2.038e+13", "0.04082", "0.999862", "1.779e+10", "9.6921e-05", "2.3842e-07"],
   ["n07", "2.037e+13", "0.03892", "0.999869", "1.764e+10", "7.7080e-05", "1.7881e-07"],
   ["n08", "2.037e+13", "0.03831", "0.999871", "1.705e+10", "1.8680e-04", "5.9605e-07"],
   ["n09", "2.040e+13", "0.03792", "0.999872", "1.732e+10", "1.1463e-05", "1.7881e-07"],
   ["n10", "2.041e+13", "0.03875", "0.999869", "1.761e+10", "4.9658e-05", "5.9605e-08"],
   ["n11", "2.037e+13", "0.03843", "0.999870", "1.753e+10", "9.0353e-05", "2.3842e-07"],
   ["n12", "2.041e+13", "0.03996", "0.999865", "1.756e+10", "1.6179e-04", "4.7684e-07"],
   ["n14", "2.039e+13", "0.03761", "0.999873", "1.788e+10", "1.5502e-04", "4.1723e-07"],
   ["n15", "2.037e+13", "0.03381", "0.999887", "2.041e+10", "8.5719e-05", "1.7881e-07"],
   ["n16", "2.040e+13", "0.03574", "0.999880", "2.079e+10", "1.8608e-04", "5.3644e-07"],
   ["n17", "2.040e+13", "0.03504", "0.999883", "2.061e+10", "2.4190e-04", "7.7486e-07"],
   ["n18", "2.043e+13", "0.02726", "0.999912", "2.047e+10", "3.0041e-05", "5.9605e-08"],
   ["n19", "2.041e+13", "0.02658", "0.999914", "2.046e+10", "3.8596e-05", "0.0000e+00"],
   ["tn", "2.042e+13", "-0.07296", "1.000278", "1.739e+10", "1.0306e-04", "1.1921e-07"]]

/-- sensor_data/HIRS/coeffs/coef_ch3.dat -/
def coefCh3 : List (List String) :=
  [["sensor", "fstar", "alpha", "beta", "Δfstar", "Δalpha", "Δbeta"],
   ["ma", "2.069e+13", "0.04373", "0.999854", "1.715e+10", "6.9320e-05", "1.1921e-07"],
   ["mb", "2.071e+13", "0.04796", "0.999838", "1.720e+10", "8.1018e-05", "1.7881e-07"],
   ["n06", "2.070e+13", "0.05311", "0.999819", "1.575e+10", "8.9731e-05", "1.7881e-07"],
   ["n07", "2.076e+13", "0.05600", "0.999809", "1.586e+10", "1.9181e-04", "5.3644e-07"],
   ["n08", "2.071e+13", "0.05712", "0.999804", "1.575e+10", "8.5555e-05", "1.7881e-07"],
   ["n09", "2.074e+13", "0.05263", "0.999821", "1.580e+10", "8.1439e-05", "1.1921e-07"],
   ["n10", "2.074e+13", "0.05554", "0.999810", "1.586e+10", "9.4697e-05", "1.7881e-07"],
   ["n11", "2.070e+13", "0.05298", "0.999820", "1.629e+10", "6.7107e-04", "2.3246e-06"],
   ["n12", "2.070e+13", "0.05428", "0.999815", "1.573e+10", "9.3848e-05", "1.7881e-07"],
   ["n14", "2.069e+13", "0.03664", "0.999879", "1.575e+10", "5.3857e-05", "1.1921e-07"],
   ["n15", "2.072e+13", "0.04606", "0.999845", "1.717e+10", "7.0885e-05", "1.1921e-07"],
   ["n16", "2.074e+13", "0.04623", "0.999844", "1.740e+10", "1.0713e-04", "2.3842e-07"],
   ["n17", "2.075e+13", "0.04571", "0.999846", "1.723e+10", "6.8430e-05", "1.1921e-07"],
   ["n18", "2.069e+13", "0.04535", "0.999849", "1.746e+10", "3.0424e-04", "9.5367e-07"],
   ["n19", "2.067e+13", "0.04283", "0.999857", "1.711e+10", "7.3373e-05", "1.1921e-07"],
   ["tn", "2.072e+13", "0.05224", "0.999822", "1.566e+10", "1.2244e-04", "2.9802e-07"]]

/-- sensor_data/HIRS/coeffs/coef_ch4.dat -/
def coefCh4 : List (List String) :=
  [["sensor", "fstar", "alpha", "beta", "Δfstar", "Δalpha", "Δbeta"],
   ["ma", "2.106e+13", "0.04105", "0.999866", "1.564e+10", "5.4538e-05", "5.9605e-08"],
   ["mb", "2.110e+13", "0.04450", "0.999854", "1.569e+10", "5.9560e-05", "5.9605e-08"],
   ["n06", "2.114e+13", "0.05832", "0.999805", "1.807e+10", "1.2012e-04", "2.3842e-07"],
   ["n07", "2.114e+13", "0.05067", "0.999832", "1.804e+10", "6.9588e-05", "5.9605e-08"],
   ["n08", "2.110e+13", "0.05628", "0.999812", "1.799e+10", "1.0586e-04", "1.7881e-07"],
   ["n09", "2.111e+13", "0.05688", "0.999810", "1.802e+10", "1.0564e-04", "1.7881e-07"],
   ["n10", "2.114e+13", "0.05066", "0.999832", "1.792e+10", "6.3494e-05", "5.9605e-08"],
   ["n11", "2.110e+13", "0.05024", "0.999832", "1.806e+10", "8.9474e-05", "1.7881e-07"],
   ["n12", "2.113e+13", "0.05492", "0.999817", "1.804e+10", "9.5416e-05", "1.1921e-07"],
   ["n14", "2.111e+13", "0.04990", "0.999833", "1.800e+10", "6.8959e-05", "1.1921e-07"],
   ["n15", "2.110e+13", "0.04417", "0.999855", "1.579e+10", "8.5734e-05", "1.7881e-07"],
   ["n16", "2.106e+13", "0.04249", "0.999860", "1.563e+10", "1.1381e-04", "2.9802e-07"],
   ["n17", "2.109e+13", "0.04328", "0.999858", "1.565e+10", "5.6624e-05", "1.1921e-07"],
   ["n18", "2.112e+13", "0.04149", "0.999865", "1.571e+10", "5.3409e-05", "1.1921e-07"],
   ["n19", "2.108e+13", "0.04276", "0.999860", "1.569e+10", "6.3714e-05", "1.1921e-07"],
   ["tn", "2.113e+13", "0.05670", "0.999810", "1.807e+10", "1.0682e-04", "2.3842e-07"]]

/-- sensor_data/HIRS/coeffs/coef_ch5.dat -/
def coefCh5 : List (List String) :=
  [["sensor", "fstar", "alpha", "beta", "Δfstar", "Δalpha", "Δbeta"],
   ["ma", "2.150e+13", "0.04382", "0.999859", "1.994e+10", "8.1636e-05", "1.7881e-07"],
   ["mb", "2.145e+13", "0.05520", "0.999819", "1.986e+10", "1.0820e-04", "2.3842e-07"],
   ["n06", "2.154e+13", "0.05488", "0.999821", "1.879e+10", "1.3205e-04", "2.9802e-07"],
   ["n07", "2.152e+13", "0.05448", "0.999823", "1.875e+10", "1.0805e-04", "1.7881e-07"],
   ["n08", "2.153e+13", "0.05151", "0.999833", "1.873e+10", "1.0354e-04", "2.3842e-07"],
   ["n09", "2.152e+13", "0.05237", "0.999830", "1.875e+10", "1.0427e-04", "1.7881e-07"],
   ["n10", "2.151e+13", "0.05005", "0.999837", "1.875e+10", "1.4573e-04", "3.5763e-07"],
   ["n11", "2.151e+13", "0.05300", "0.999826", "1.892e+10", "2.2455e-04", "6.5565e-07"],
   ["n12", "2.149e+13", "0.05678", "0.999815", "1.869e+10", "1.1690e-04", "2.3842e-07"],
   ["n14", "2.144e+13", "0.05189", "0.999832", "1.867e+10", "9.8940e-05", "1.7881e-07"],
   ["n15", "2.148e+13", "0.05295", "0.999827", "1.989e+10", "1.4392e-04", "2.9802e-07"],
   ["n16", "2.150e+13", "0.05292", "0.999827", "1.961e+10", "5.8845e-05", "3.5763e-07"],
   ["n17", "2.148e+13", "0.05601", "0.999816", "1.989e+10", "1.0273e-04", "1.7881e-07"],
   ["n18", "2.143e+13", "0.04366", "0.999859", "1.981e+10", "7.0050e-05", "1.1921e-07"],
   ["n19", "2.148e+13", "0.04259", "0.999863", "1.991e+10", "8.4825e-05", "1.1921e-07"],
   ["tn", "2.149e+13", "0.05237", "0.999829", "1.891e+10", "1.3071e-04", "2.9802e-07"]]

/-- sensor_data/HIRS/coeffs/coef_ch6.dat -/
def coefCh6 : List (List String) :=
  [["sensor", "fstar", "alpha", "beta", "Δfstar", "Δalpha", "Δbeta"],
   ["ma", "2.195e+13", "0.04438", "0.999860", "1.900e+10", "7.8823e-05", "1.1921e-07"],
   ["mb", "2.195e+13", "0.04832", "0.999847", "1.898e+10", "9.1698e-05", "1.1921e-07"],
   ["n06", "2.197e+13", "0.05783", "0.999815", "1.919e+10", "1.2156e-04", "1.7881e-07"],
   ["n07", "2.202e+13", "0.06140", "0.999803", "1.924e+10", "1.2612e-04", "2.3842e-07"],
   ["n08", "2.197e+13", "0.06130", "0.999803", "1.917e+10", "1.2276e-04", "1.7881e-07"],
   ["n09", "2.199e+13", "0.06426", "0.999793", "1.887e+10", "1.8476e-04", "4.7684e-07"],
   ["n10", "2.199e+13", "0.06241", "0.999799", "1.923e+10", "1.2100e-04", "2.3842e-07"],
   ["n11", "2.197e+13", "0.05622", "0.999819", "1.892e+10", "8.5533e-06", "1.7881e-07"],
   ["n12", "2.197e+13", "0.07371", "0.999765", "1.940e+10", "3.5557e-04", "9.5367e-07"],
   ["n14", "2.197e+13", "0.05365", "0.999828", "1.920e+10", "1.1951e-04", "2.3842e-07"],
   ["n15", "2.196e+13", "0.04599", "0.999855", "1.898e+10", "7.6670e-05", "1.1921e-07"],
   ["n16", "2.194e+13", "0.04496", "0.999858", "1.890e+10", "1.5274e-06", "1.1921e-07"],
   ["n17", "2.196e+13", "0.04734", "0.999850", "1.901e+10", "8.1457e-05", "1.1921e-07"],
   ["n18", "2.195e+13", "0.04514", "0.999858", "1.898e+10", "8.1692e-05", "1.1921e-07"],
   ["n19", "2.201e+13", "0.04401", "0.999862", "1.908e+10", "7.5519e-05", "1.1921e-07"],
   ["tn", "2.197e+13", "0.06014", "0.999807", "1.915e+10", "1.1681e-04", "1.7881e-07"]]

/-- sensor_data/HIRS/coeffs/coef_ch7.dat -/
def coefCh7 : List (List String) :=
  [["sensor", "fstar", "alpha", "beta", "Δfstar", "Δalpha", "Δbeta"],
   ["ma", "2.247e+13", "0.04660", "0.999857", "1.989e+10", "9.5099e-05", "1.7881e-07"],
   ["mb", "2.242e+13", "0.05539", "0.999826", "1.984e+10", "1.3353e-04", "2.9802e-07"],
   ["n06", "2.248e+13", "0.05991", "0.999812", "2.431e+10", "1.3027e-04", "2.3842e-07"],
   ["n07", "2.249e+13", "0.06175", "0.999806", "2.420e+10", "1.8603e-04", "4.1723e-07"],
   ["n08", "2.246e+13", "0.06149", "0.999807", "2.417e+10", "2.3079e-04", "5.3644e-07"],
   ["n09", "2.249e+13", "0.05192", "0.999840", "2.438e+10", "5.7939e-05", "0.0000e+00"],
   ["n10", "2.252e+13", "0.06674", "0.999790", "2.424e+10", "1.6994e-04", "2.9802e-07"],
   ["n11", "2.249e+13", "0.05393", "0.999833", "2.437e+10", "1.2940e-04", "2.3842e-07"],
   ["n12", "2.256e+13", "0.06431", "0.999800", "2.463e+10", "1.6148e-04", "2.3842e-07"],
   ["n14", "2.249e+13", "0.05501", "0.999829", "2.461e+10", "2.0238e-04", "4.7684e-07"],
   ["n15", "2.243e+13", "0.05471", "0.999828", "1.979e+10", "9.3050e-05", "1.1921e-07"],
   ["n16", "2.250e+13", "0.05558", "0.999826", "1.987e+10", "1.8593e-04", "4.1723e-07"],
   ["n17", "2.245e+13", "0.05710", "0.999822", "2.005e+10", "2.2328e-04", "5.3644e-07"],
   ["n18", "2.251e+13", "0.05489", "0.999830", "1.993e+10", "1.1133e-04", "2.3842e-07"],
   ["n19", "2.248e+13", "0.04602", "0.999859", "1.989e+10", "8.3935e-05", "1.7881e-07"],
   ["tn", "2.247e+13", "0.06141", "0.999807", "2.438e+10", "1.3853e-04", "1.7881e-07"]]

/-- sensor_data/HIRS/coeffs/coef_ch8.dat -/
def coefCh8 : List (List String) :=
  [["sensor", "fstar", "alpha", "beta", "Δfstar", "Δalpha", "Δbeta"],
   ["ma", "2.699e+13", "0.24364", "0.999530", "3.680e+10", "1.6573e-04", "6.5565e-07"],
   ["mb", "2.700e+13", "0.25272", "0.999516", "6.128e+10", "1.4340e-01", "1.9556e-04"],
   ["n06", "2.703e+13", "0.24970", "0.999522", "3.117e+10", "1.7747e-04", "5.3644e-07"],
   ["n07", "2.693e+13", "0.11295", "0.999702", "3.097e+10", "3.1055e-04", "4.7684e-07"],
   ["n08", "2.698e+13", "0.11112", "0.999709", "3.102e+10", "3.3630e-04", "4.7684e-07"],
   ["n09", "2.697e+13", "0.22395", "0.999552", "3.113e+10", "8.6874e-05", "7.1526e-07"],
   ["n10", "2.699e+13", "0.24059", "0.999533", "3.092e+10", "1.8969e-04", "4.7684e-07"],
   ["n11", "2.704e+13", "0.24502", "0.999525", "3.144e+10", "8.4177e-05", "3.5763e-07"],
   ["n12", "2.697e+13", "0.11135", "0.999709", "3.118e+10", "3.3052e-04", "4.7684e-07"],
   ["n14", "2.698e+13", "0.16619", "0.999635", "3.074e+10", "2.8902e-04", "7.1526e-07"],
   ["n15", "2.695e+13", "0.23059", "0.999492", "3.674e+10", "6.8724e-05", "4.7684e-07"],
   ["n16", "2.696e+13", "0.22810", "0.999491", "3.659e+10", "3.6274e-04", "1.0729e-06"],
   ["n17", "2.702e+13", "0.21508", "0.999508", "3.674e+10", "7.6622e-05", "2.9802e-07"],
   ["n18", "2.702e+13", "0.11082", "0.999709", "3.694e+10", "4.0371e-04", "6.5565e-07"],
   ["n19", "2.699e+13", "0.11014", "0.999711", "3.687e+10", "4.1053e-04", "7.1526e-07"],
   ["tn", "2.702e+13", "0.26995", "0.999466", "3.127e+10", "2.4387e-04", "2.9802e-07"]]

/-- sensor_data/HIRS/coeffs/coef_ch9.dat -/
def coefCh9 : List (List String) :=
  [["sensor", "fstar", "alpha", "beta", "Δfstar", "Δalpha", "Δbeta"],
   ["ma", "3.089e+13", "0.20979", "0.999779", "4.292e+10", "3.9741e-05", "1.1325e-06"],
   ["mb", "3.091e+13", "0.17632", "0.999803", "4.324e+10", "6.2244e-04", "1.2517e-06"],
   ["n06", "3.084e+13", "0.09842", "0.999798", "3.208e+10", "3.0717e-04", "2.9802e-07"],
   ["n07", "3.079e+13", "0.09774", "0.999792", "3.196e+10", "2.7399e-04", "2.9802e-07"],
   ["n08", "3.081e+13", "0.16474", "0.999750", "3.189e+10", "2.7987e-04", "4.7684e-07"],
   ["n09", "3.095e+13", "0.24381", "0.999707", "3.230e+10", "7.3507e-05", "7.1526e-07"],
   ["n10", "3.084e+13", "0.09773", "0.999794", "3.230e+10", "3.0819e-04", "4.1723e-07"],
   ["n11", "3.096e+13", "0.18611", "0.999728", "3.222e+10", "1.3083e-04", "3.5763e-07"],
   ["n12", "3.078e+13", "0.09928", "0.999790", "3.195e+10", "2.9006e-04", "2.9802e-07"],
   ["n14", "3.087e+13", "0.12018", "0.999781", "3.222e+10", "4.6783e-04", "2.9802e-07"],
   ["n15", "3.099e+13", "0.18818", "0.999774", "4.321e+10", "1.9595e-04", "7.7486e-07"],
   ["n16", "3.101e+13", "0.21882", "0.999757", "4.331e+10", "2.5108e-05", "8.3447e-07"],
   ["n17", "3.090e+13", "0.17945", "0.999792", "4.292e+10", "2.5199e-04", "9.5367e-07"],
   ["n18", "3.091e+13", "0.20061", "0.999775", "4.298e+10", "1.2460e-04", "9.5367e-07"],
   ["n19", "3.085e+13", "0.06820", "0.999870", "4.290e+10", "2.7111e-04", "2.3842e-07"],
   ["tn", "3.086e+13", "0.23143", "0.999705", "3.205e+10", "3.0115e-05", "6.5565e-07"]]

/-- sensor_data/HIRS/coeffs/coef_ch10.dat -/
def coefCh10 : List (List String) :=
  [["sensor", "fstar", "alpha", "beta", "Δfstar", "Δalpha", "Δbeta"],
   ["ma", "2.403e+13", "0.03601", "0.999901", "2.512e+10", "8.0030e-05", "1.1921e-07"],
   ["mb", "2.408e+13", "0.03940", "0.999891", "2.524e+10", "1.0402e-04", "1.7881e-07"],
   ["n06", "3.667e+13", "0.16349", "0.999496", "5.420e+12", "3.5236e-02", "1.3024e-04"],
   ["n07", "3.667e+13", "0.27705", "0.999562", "5.452e+12", "1.1174e-01", "8.6546e-05"],
   ["n08", "3.665e+13", "0.27419", "0.999528", "5.445e+12", "1.0567e-01", "1.0353e-04"],
   ["n09", "3.663e+13", "0.28045", "0.999568", "5.443e+12", "1.1459e-01", "8.2016e-05"],
   ["n10", "3.676e+13", "0.38200", "0.999559", "5.465e+12", "6.6595e-02", "1.4544e-05"],
   ["n11", "2.388e+13", "0.05723", "0.999838", "2.435e+12", "1.3432e-02", "2.2650e-05"],
   ["n12", "3.667e+13", "0.29027", "0.999535", "5.451e+12", "1.1682e-01", "9.3460e-05"],
   ["n14", "2.389e+13", "0.05994", "0.999829", "2.436e+12", "1.4064e-02", "2.4259e-05"],
   ["n15", "2.404e+13", "0.03787", "0.999896", "2.510e+10", "8.1901e-05", "1.1921e-07"],
   ["n16", "2.411e+13", "0.03679", "0.999899", "2.552e+10", "1.4370e-04", "2.9802e-07"],
   ["n17", "2.405e+13", "0.04056", "0.999888", "2.538e+10", "2.2016e-04", "5.3644e-07"],
   ["n18", "2.403e+13", "0.03758", "0.999897", "2.508e+10", "8.4370e-05", "1.1921e-07"],
   ["n19", "2.407e+13", "0.03759", "0.999898", "2.519e+10", "8.6565e-05", "1.1921e-07"],
   ["tn", "3.664e+13", "0.27969", "0.999529", "5.424e+12", "1.8838e-02", "5.2214e-05"]]

/-- sensor_data/HIRS/coeffs/coef_ch11.dat -/
def coefCh11 : List (List String) :=
  [["sensor", "fstar", "alpha", "beta", "Δfstar", "Δalpha", "Δbeta"],
   ["ma", "4.089e+13", "0.17437", "0.999938", "1.477e+10", "4.0203e-05", "5.9605e-08"],
   ["mb", "4.087e+13", "0.22454", "0.999959", "1.479e+10", "3.0249e-05", "5.9605e-08"],
   ["n06", "4.112e+13", "0.26006", "0.999984", "7.081e+10", "1.6859e-04", "7.1526e-07"],
   ["n07", "4.099e+13", "0.30950", "1.000056", "7.039e+10", "4.0078e-04", "1.7881e-06"],
   ["n08", "4.105e+13", "0.29509", "1.000014", "7.063e+10", "2.7463e-04", "1.1921e-06"],
   ["n09", "4.104e+13", "0.27528", "1.000006", "7.057e+10", "2.1130e-04", "9.5367e-07"],
   ["n10", "4.096e+13", "0.21116", "0.999912", "7.025e+10", "8.5697e-05", "2.9802e-07"],
   ["n11", "4.091e+13", "0.28189", "1.000018", "7.077e+10", "2.0715e-03", "3.4571e-06"],
   ["n12", "4.110e+13", "0.29995", "0.999984", "7.078e+10", "3.0518e-04", "9.5367e-07"],
   ["n14", "4.080e+13", "-0.01525", "0.999652", "6.941e+10", "9.2216e-04", "3.9339e-06"],
   ["n15", "4.091e+13", "0.18663", "0.999942", "1.480e+10", "5.6058e-05", "5.9605e-08"],
   ["n16", "4.092e+13", "0.05936", "0.999792", "1.465e+10", "2.1367e-04", "1.1921e-07"],
   ["n17", "4.100e+13", "0.19017", "0.999968", "1.486e+10", "4.2364e-05", "5.9605e-08"],
   ["n18", "4.098e+13", "0.18047", "0.999955", "1.484e+10", "3.7834e-05", "5.9605e-08"],
   ["n19", "4.090e+13", "0.18559", "0.999944", "1.479e+10", "3.7432e-05", "5.9605e-08"],
   ["tn", "4.095e+13", "0.24935", "0.999945", "7.022e+10", "1.3606e-04", "3.5763e-07"]]

/-- sensor_data/HIRS/coeffs/coef_ch12.dat -/
def coefCh12 : List (List String) :=
  [["sensor", "fstar", "alpha", "beta", "Δfstar", "Δalpha", "Δbeta"],
   ["ma", "4.592e+13", "0.15154", "0.999820", "8.013e+10", "3.7700e-06", "1.9670e-06"],
   ["mb", "4.603e+13", "0.16165", "0.999832", "8.102e+10", "1.1290e-03", "7.1526e-07"],
   ["n06", "4.459e+13", "0.69405", "0.999890", "6.591e+11", "1.7404e-02", "1.6868e-05"],
   ["n07", "4.458e+13", "0.44681", "0.999445", "6.571e+11", "1.2310e-02", "2.0027e-05"],
   ["n08", "4.449e+13", "0.33026", "0.999231", "6.537e+11", "9.2542e-03", "3.7730e-05"],
   ["n09", "4.451e+13", "0.37348", "0.999250", "6.545e+11", "1.0588e-02", "3.4392e-05"],
   ["n10", "4.458e+13", "0.52783", "0.999586", "6.575e+11", "1.4099e-02", "7.4506e-06"],
   ["n11", "4.449e+13", "0.51515", "0.999772", "6.553e+11", "1.2234e-02", "1.7881e-06"],
   ["n12", "4.436e+13", "0.19795", "0.998914", "6.487e+11", "6.7536e-03", "6.1631e-05"],
   ["n14", "4.451e+13", "0.46608", "0.999727", "6.598e+11", "2.2162e-02", "1.6391e-05"],
   ["n15", "4.597e+13", "0.28074", "1.000122", "8.041e+10", "2.4205e-04", "5.9605e-07"],
   ["n16", "4.588e+13", "0.29506", "1.000129", "8.006e+10", "5.3617e-04", "9.5367e-07"],
   ["n17", "4.592e+13", "0.30737", "1.000162", "8.021e+10", "5.0861e-04", "8.3447e-07"],
   ["n18", "4.603e+13", "0.25807", "1.000060", "8.058e+10", "2.4310e-04", "2.3842e-07"],
   ["n19", "4.598e+13", "0.22011", "1.000002", "8.038e+10", "1.9751e-04", "1.1921e-07"],
   ["tn", "4.458e+13", "0.56565", "0.999694", "6.581e+11", "1.4294e-02", "2.9802e-07"]]

/-- sensor_data/HIRS/coeffs/coef_ch13.dat -/
def coefCh13 : List (List String) :=
  [["sensor", "fstar", "alpha", "beta", "Δfstar", "Δalpha", "Δbeta"],
   ["ma", "6.569e+13", "0.02937", "0.999889", "2.041e+10", "6.3535e-06", "1.7881e-07"],
   ["mb", "6.562e+13", "0.10494", "1.000230", "2.037e+10", "1.7688e-05", "0.0000e+00"],
   ["n06", "6.569e+13", "0.00567", "0.999762", "2.672e+10", "7.6778e-06", "4.1723e-07"],
   ["n07", "6.545e+13", "0.02667", "0.999827", "2.655e+10", "3.3114e-05", "6.5565e-07"],
   ["n08", "6.563e+13", "0.02034", "0.999824", "2.662e+10", "1.3755e-04", "3.5763e-07"],
   ["n09", "6.570e+13", "0.00302", "0.999740", "2.671e+10", "4.5683e-05", "2.9802e-07"],
   ["n10", "6.571e+13", "0.06209", "1.000029", "2.681e+10", "1.5150e-04", "9.5367e-07"],
   ["n11", "6.579e+13", "0.14826", "1.000478", "2.709e+10", "3.8816e-04", "3.6955e-06"],
   ["n12", "6.567e+13", "0.05303", "0.999990", "2.671e+10", "4.5747e-06", "2.3842e-07"],
   ["n14", "6.571e+13", "-0.00402", "0.999683", "2.678e+10", "8.0031e-05", "1.1325e-06"],
   ["n15", "6.569e+13", "0.10029", "1.000218", "2.041e+10", "1.2159e-05", "0.0000e+00"],
   ["n16", "6.559e+13", "0.01713", "0.999772", "2.035e+10", "4.6715e-06", "2.9802e-07"],
   ["n17", "6.562e+13", "0.10271", "1.000226", "2.037e+10", "1.8127e-05", "0.0000e+00"],
   ["n18", "6.569e+13", "0.04525", "0.999973", "2.041e+10", "8.2105e-06", "1.7881e-07"],
   ["n19", "6.553e+13", "0.01122", "0.999794", "2.031e+10", "5.5544e-06", "2.3842e-07"],
   ["tn", "6.576e+13", "0.05902", "1.000028", "2.677e+10", "1.3135e-05", "2.3842e-07"]]

/-- sensor_data/HIRS/coeffs/coef_ch14.dat -/
def coefCh14 : List (List String) :=
  [["sensor", "fstar", "alpha", "beta", "Δfstar", "Δalpha", "Δbeta"],
   ["ma", "6.633e+13", "-0.01418", "0.999638", "2.751e+10", "1.0274e-05", "4.7684e-07"],
   ["mb", "6.583e+13", "-0.40342", "0.997439", "2.715e+10", "8.3357e-05", "2.8014e-06"],
   ["n06", "6.629e+13", "-0.01022", "0.999664", "2.109e+10", "1.2909e-05", "3.5763e-07"],
   ["n07", "6.614e+13", "-0.04122", "0.999466", "2.099e+10", "3.1069e-05", "3.5763e-07"],
   ["n08", "6.627e+13", "-0.00483", "0.999646", "2.107e+10", "1.5408e-05", "3.5763e-07"],
   ["n09", "6.625e+13", "-0.00706", "0.999667", "2.106e+10", "1.2998e-05", "3.5763e-07"],
   ["n10", "6.614e+13", "-0.03923", "0.999469", "2.099e+10", "1.4793e-05", "4.1723e-07"],
   ["n11", "6.628e+13", "0.02755", "0.999862", "2.108e+10", "2.2803e-05", "1.1921e-07"],
   ["n12", "6.629e+13", "0.00705", "0.999755", "2.109e+10", "1.6552e-05", "2.3842e-07"],
   ["n14", "6.626e+13", "0.08637", "1.000182", "2.106e+10", "2.8215e-05", "0.0000e+00"],
   ["n15", "6.628e+13", "0.01273", "0.999779", "2.747e+10", "1.3467e-05", "3.5763e-07"],
   ["n16", "6.613e+13", "-0.04229", "0.999486", "2.735e+10", "5.1595e-06", "6.5565e-07"],
   ["n17", "6.631e+13", "0.00724", "0.999747", "2.757e+10", "1.4284e-04", "1.4901e-06"],
   ["n18", "6.626e+13", "0.04398", "0.999954", "2.745e+10", "1.1515e-05", "2.3842e-07"],
   ["n19", "6.641e+13", "0.02169", "0.999836", "2.758e+10", "7.8026e-06", "3.5763e-07"],
   ["tn", "6.632e+13", "-0.00749", "0.999667", "2.111e+10", "2.3212e-05", "2.9802e-07"]]

/-- sensor_data/HIRS/coeffs/coef_ch15.dat -/
def coefCh15 : List (List String) :=
  [["sensor", "fstar", "alpha", "beta", "Δfstar", "Δalpha", "Δbeta"],
   ["ma", "6.711e+13", "0.01806", "0.999806", "2.037e+10", "1.0837e-05", "2.3842e-07"],
   ["mb", "6.699e+13", "-0.00219", "0.999680", "2.030e+10", "8.5656e-06", "3.5763e-07"],
   ["n06", "6.710e+13", "0.00407", "0.999705", "2.693e+10", "1.3246e-05", "4.1723e-07"],
   ["n07", "6.715e+13", "-0.01973", "0.999565", "2.698e+10", "6.7241e-06", "5.9605e-07"],
   ["n08", "6.711e+13", "-0.00353", "0.999685", "2.694e+10", "9.4329e-06", "4.1723e-07"],
   ["n09", "6.726e+13", "0.00146", "0.999709", "2.704e+10", "5.5952e-05", "1.7881e-07"],
   ["n10", "6.711e+13", "-0.04842", "0.999401", "2.693e+10", "4.1083e-05", "5.3644e-07"],
   ["n11", "6.709e+13", "-0.06889", "0.999301", "2.693e+10", "7.3761e-07", "7.7486e-07"],
   ["n12", "6.712e+13", "0.00099", "0.999679", "2.697e+10", "2.1375e-05", "6.5565e-07"],
   ["n14", "6.707e+13", "0.01262", "0.999759", "2.691e+10", "3.6675e-06", "4.7684e-07"],
   ["n15", "6.709e+13", "0.07649", "1.000127", "2.035e+10", "1.4946e-05", "0.0000e+00"],
   ["n16", "6.697e+13", "0.00302", "0.999712", "2.028e+10", "7.1528e-06", "2.9802e-07"],
   ["n17", "6.696e+13", "0.00079", "0.999695", "2.028e+10", "3.7320e-06", "3.5763e-07"],
   ["n18", "6.715e+13", "0.03527", "0.999895", "2.038e+10", "1.1142e-05", "1.7881e-07"],
   ["n19", "6.695e+13", "-0.00396", "0.999695", "2.026e+10", "6.4764e-06", "3.5763e-07"],
   ["tn", "6.710e+13", "-0.01925", "0.999550", "2.695e+10", "1.2927e-06", "6.5565e-07"]]

/-- sensor_data/HIRS/coeffs/coef_ch16.dat -/
def coefCh16 : List (List String) :=
  [["sensor", "fstar", "alpha", "beta", "Δfstar", "Δalpha", "Δbeta"],
   ["ma", "6.736e+13", "0.02725", "0.999862", "2.274e+10", "9.7733e-06", "2.3842e-07"],
   ["mb", "6.722e+13", "-0.03536", "0.999475", "2.265e+10", "9.2797e-06", "5.3644e-07"],
   ["n06", "6.807e+13", "0.01085", "0.999756", "2.714e+11", "1.4452e-04", "3.5763e-06"],
   ["n07", "6.811e+13", "0.01859", "0.999782", "2.716e+11", "4.0617e-04", "1.9670e-06"],
   ["n08", "6.810e+13", "0.00490", "0.999701", "2.716e+11", "2.3801e-04", "3.5763e-06"],
   ["n09", "6.824e+13", "0.09146", "1.000060", "2.729e+11", "4.6199e-04", "1.6689e-06"],
   ["n10", "6.802e+13", "0.00875", "0.999727", "2.709e+11", "3.3559e-04", "2.9802e-06"],
   ["n11", "6.803e+13", "0.02588", "0.999841", "2.711e+11", "1.6137e-04", "2.9206e-06"],
   ["n12", "6.796e+13", "-0.03783", "0.999447", "2.706e+11", "1.6715e-04", "5.7817e-06"],
   ["n14", "6.807e+13", "0.06794", "1.000083", "2.714e+11", "3.0763e-04", "2.3842e-07"],
   ["n15", "6.721e+13", "-0.01393", "0.999596", "2.265e+10", "1.0524e-05", "4.1723e-07"],
   ["n16", "6.726e+13", "0.00998", "0.999734", "2.269e+10", "7.3789e-06", "4.7684e-07"],
   ["n17", "6.716e+13", "-0.02297", "0.999552", "2.262e+10", "1.5793e-05", "5.9605e-07"],
   ["n18", "6.741e+13", "0.04594", "0.999967", "2.278e+10", "1.2998e-05", "1.7881e-07"],
   ["n19", "6.739e+13", "0.01445", "0.999792", "2.276e+10", "8.0802e-06", "2.9802e-07"],
   ["tn", "6.816e+13", "0.03355", "0.999724", "2.722e+11", "4.5056e-04", "3.6359e-06"]]

/-- sensor_data/HIRS/coeffs/coef_ch17.dat -/
def coefCh17 : List (List String) :=
  [["sensor", "fstar", "alpha", "beta", "Δfstar", "Δalpha", "Δbeta"],
   ["ma", "7.256e+13", "0.04341", "0.999827", "1.929e+10", "2.7742e-05", "1.7881e-07"],
   ["mb", "7.262e+13", "0.05205", "0.999791", "1.938e+10", "9.6668e-05", "7.7486e-07"],
   ["n06", "7.078e+13", "-0.00707", "0.999596", "2.851e+11", "2.6123e-04", "4.2319e-06"],
   ["n07", "7.068e+13", "-0.00013", "0.999653", "2.842e+11", "2.1674e-04", "4.1127e-06"],
   ["n08", "7.070e+13", "0.02428", "0.999797", "2.844e+11", "3.2993e-04", "2.3842e-06"],
   ["n09", "7.074e+13", "-0.01989", "0.999512", "2.847e+11", "2.5518e-04", "4.9472e-06"],
   ["n10", "7.077e+13", "0.03572", "0.999881", "2.850e+11", "1.8958e-04", "2.7418e-06"],
   ["n11", "7.250e+13", "0.05931", "0.999940", "2.992e+11", "2.8819e-04", "2.8014e-06"],
   ["n12", "7.061e+13", "-0.22023", "0.998277", "2.838e+11", "6.2793e-05", "1.4603e-05"],
   ["n14", "7.264e+13", "0.08449", "1.000098", "3.004e+11", "2.0970e-04", "2.2650e-06"],
   ["n15", "7.250e+13", "-0.01298", "0.999441", "1.926e+10", "2.5058e-05", "3.5763e-07"],
   ["n16", "7.245e+13", "-0.03481", "0.999287", "1.923e+10", "4.9174e-05", "2.9802e-07"],
   ["n17", "7.247e+13", "0.01323", "0.999607", "1.924e+10", "2.7069e-05", "2.3842e-07"],
   ["n18", "7.257e+13", "0.05004", "0.999871", "1.929e+10", "2.8700e-05", "1.7881e-07"],
   ["n19", "7.252e+13", "-0.05216", "0.999193", "1.927e+10", "2.5395e-05", "4.7684e-07"],
   ["tn", "7.074e+13", "0.00591", "0.999669", "2.848e+11", "2.7465e-04", "3.8147e-06"]]

/-- sensor_data/HIRS/coeffs/coef_ch18.dat -/
def coefCh18 : List (List String) :=
  [["sensor", "fstar", "alpha", "beta", "Δfstar", "Δalpha", "Δbeta"],
   ["ma", "7.544e+13", "0.03256", "0.999574", "3.056e+10", "7.4018e-05", "2.9802e-07"],
   ["mb", "7.542e+13", "0.02226", "0.999480", "3.056e+10", "7.0125e-05", "6.5565e-07"],
   ["n06", "7.542e+13", "0.03991", "0.999572", "2.413e+10", "5.9657e-05", "2.9802e-07"],
   ["n07", "7.544e+13", "0.09515", "0.999943", "2.414e+10", "6.0529e-05", "1.1921e-07"],
   ["n08", "7.540e+13", "0.04110", "0.999560", "2.412e+10", "6.1862e-05", "3.5763e-07"],
   ["n09", "7.552e+13", "0.08896", "0.999901", "2.420e+10", "6.4135e-05", "1.1921e-07"],
   ["n10", "7.540e+13", "0.08565", "0.999897", "2.412e+10", "5.9254e-05", "1.7881e-07"],
   ["n11", "7.529e+13", "0.00232", "0.999369", "2.405e+10", "5.4501e-05", "4.1723e-07"],
   ["n12", "7.542e+13", "0.06600", "0.999729", "2.414e+10", "6.5647e-05", "2.3842e-07"],
   ["n14", "7.529e+13", "-0.00783", "0.999341", "2.406e+10", "4.6486e-05", "4.7684e-07"],
   ["n15", "7.555e+13", "0.05925", "0.999776", "3.066e+10", "6.7946e-05", "2.3842e-07"],
   ["n16", "7.550e+13", "0.03352", "0.999605", "3.058e+10", "9.9435e-05", "0.0000e+00"],
   ["n17", "7.555e+13", "0.05180", "0.999694", "3.067e+10", "6.6452e-05", "4.7684e-07"],
   ["n18", "7.533e+13", "-0.05781", "0.998963", "3.048e+10", "6.2071e-05", "7.7486e-07"],
   ["n19", "7.550e+13", "0.01509", "0.999482", "3.062e+10", "5.5926e-05", "5.9605e-07"],
   ["tn", "7.522e+13", "-0.00400", "0.999192", "2.401e+10", "6.5726e-05", "5.3644e-07"]]

/-- sensor_data/HIRS/coeffs/coef_ch19.dat -/
def coefCh19 : List (List String) :=
  [["sensor", "fstar", "alpha", "beta", "Δfstar", "Δalpha", "Δbeta"],
   ["ma", "7.986e+13", "0.38452", "0.998791", "3.176e+10", "2.3890e-04", "2.9802e-07"],
   ["mb", "7.984e+13", "0.33958", "0.998477", "3.175e+10", "2.3365e-04", "4.1723e-07"],
   ["n06", "7.945e+13", "0.42933", "0.998800", "5.358e+10", "4.7791e-04", "4.7684e-07"],
   ["n07", "7.960e+13", "0.50552", "0.999182", "5.379e+10", "5.0020e-04", "3.5763e-07"],
   ["n08", "7.967e+13", "0.46414", "0.998982", "5.388e+10", "5.0521e-04", "3.5763e-07"],
   ["n09", "7.983e+13", "0.39378", "0.998674", "5.409e+10", "4.3085e-04", "6.5565e-07"],
   ["n10", "7.984e+13", "0.52318", "0.999335", "5.410e+10", "5.5456e-04", "0.0000e+00"],
   ["n11", "7.962e+13", "0.07500", "0.997479", "5.388e+10", "6.6295e-04", "2.9802e-06"],
   ["n12", "7.957e+13", "0.43819", "0.998854", "5.375e+10", "5.0300e-04", "2.9802e-07"],
   ["n14", "7.946e+13", "0.48644", "0.999150", "5.361e+10", "5.3227e-04", "5.9605e-08"],
   ["n15", "7.964e+13", "0.36541", "0.998648", "3.158e+10", "2.2528e-04", "4.1723e-07"],
   ["n16", "7.989e+13", "0.33987", "0.998506", "3.181e+10", "1.4055e-04", "7.7486e-07"],
   ["n17", "7.968e+13", "0.40986", "0.998818", "3.163e+10", "2.4709e-04", "4.1723e-07"],
   ["n18", "7.989e+13", "0.33418", "0.998540", "3.179e+10", "2.1335e-04", "4.1723e-07"],
   ["n19", "7.976e+13", "0.33452", "0.998555", "3.168e+10", "2.0862e-04", "4.1723e-07"],
   ["tn", "7.981e+13", "0.47495", "0.999014", "5.405e+10", "5.3060e-04", "2.3842e-07"]]

/-- The file of channel `n`. -/
def hirsCoefFiles : List (List (List String)) :=
  [coefCh1, coefCh2, coefCh3, coefCh4, coefCh5, coefCh6, coefCh7, coefCh8, coefCh9, coefCh10, coefCh11, coefCh12, coefCh13, coefCh14, coefCh15, coefCh16, coefCh17, coefCh18, coefCh19]

end Verif
