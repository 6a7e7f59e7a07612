S='Model/SolarPosition.lean'; C='Model/Clearsky.lean'; A='Model/Atmosphere.lean'
MUTS=[
('m892',S,'solarZenithAnalytical','Fl.arccos (Fl.cos declination * Fl.cos latitude * Fl.cos hourangle +\n    Fl.sin declination * Fl.sin latitude)','Fl.arccos (Fl.cos declination * Fl.cos latitude * Fl.cos hourangle -\n    Fl.sin declination * Fl.sin latitude)','sign','course of the day (C242)'),
('m893',S,'sunsetAngle','-(Fl.tan declination) * Fl.tan latitude_rad','Fl.tan declination * Fl.tan latitude_rad','sign of the declination','day length (C242)'),
('m894',S,'declinationCooper69','fin (2.0 * π / 365.0) * 285.0','fin (2.0 * π / 365.0) * 280.0','phase','solstice (C243)'),
('m895',S,'sunRiseSetTransitGeometric1','let sunrise_angle := -sunset_angle','let sunrise_angle := sunset_angle','sunrise at sunset','day length (C242)'),
('m896',C,'ineichen','Fl.exp (-cg2 * airmass_absolute * (fh1 + fh2 * (tl - 1)))','Fl.exp (-cg2 / airmass_absolute * (fh1 + fh2 * (tl - 1)))','air mass in the denominator','a lower sun gives less light (C244)'),
]
